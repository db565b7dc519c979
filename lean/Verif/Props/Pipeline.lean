import Verif.Proof.Aborts
import Verif.Props.ServiceFilter
import Verif.Props.ProgramFilter
import Verif.Props.ServiceRecorder
import Verif.Props.StartSeeker
/-
Properties C67-C69 and C86-C89: connected commands.
-/
set_option linter.unusedSimpArgs false

namespace Mirakc.Props
open Mirakc.Spec Mirakc.Spec.Pipeline Mirakc.Pipeline
open Mirakc.Spec.ServiceFilter (usablePat validPmt Missing received sent)

/-! A concrete representation of packets and a concrete stream for the examples. -/

namespace C68ex

/-- Bytes as a number. -/
def enc : List UInt8 → Nat
  | [] => 0
  | x :: xs => x.toNat + 256 * enc xs
/-- `n` bytes of a number. -/
def dec : Nat → Nat → List UInt8
  | 0, _ => []
  | n + 1, c => UInt8.ofNat (c % 256) :: dec n (c / 256)

theorem dec_enc (xs : List UInt8) : dec xs.length (enc xs) = xs := by
  induction xs with
  | nil => rfl
  | cons x xs ih =>
    have h1 : (x.toNat + 256 * enc xs) % 256 = x.toNat := by
      have : x.toNat < 256 := x.toNat_lt
      omega
    have h2 : (x.toNat + 256 * enc xs) / 256 = enc xs := by
      have : x.toNat < 256 := x.toNat_lt
      omega
    simp only [List.length_cons, enc, dec, h1, h2, ih, UInt8.ofNat_toNat]

/-- The header and the PCR of a packet. -/
def fields : List UInt8 → Packet
  | _ :: b1 :: b2 :: b3 :: b4 :: b5 :: b6 :: b7 :: b8 :: b9 :: b10 :: b11 :: _ =>
    { pid := b1.toNat % 32 * 256 + b2.toNat
      pusi := b1.toNat / 64 % 2 = 1
      pcr := if b3.toNat / 32 % 2 = 1 ∧ 0 < b4.toNat ∧ b5.toNat / 16 % 2 = 1 then
        some ((b6.toNat * 2 ^ 25 + b7.toNat * 2 ^ 17 + b8.toNat * 2 ^ 9 + b9.toNat * 2 +
          b10.toNat / 128) * 300 + (b10.toNat % 2 * 256 + b11.toNat)) else none }
  | _ => { pid := 0x1fff }

/-- A packet with a header and stuffing. -/
def raw (pid cc : Nat) (x : UInt8) : List UInt8 :=
  [0x47, UInt8.ofNat (0x40 + pid / 256), UInt8.ofNat (pid % 256), UInt8.ofNat (0x10 + cc % 16)] ++
    List.replicate 184 x
theorem raw_length (pid cc : Nat) (x : UInt8) : (raw pid cc x).length = 188 := by
  rw [raw, List.length_append, List.length_replicate]; rfl
/-- A packet with a PCR of 300 times the base. -/
def clk (pid base : Nat) : List UInt8 :=
  [0x47, UInt8.ofNat (pid / 256), UInt8.ofNat (pid % 256), 0x20, 183, 0x10,
    UInt8.ofNat (base / 2 ^ 25), UInt8.ofNat (base / 2 ^ 17), UInt8.ofNat (base / 2 ^ 9),
    UInt8.ofNat (base / 2), UInt8.ofNat (base % 2 * 128), 0] ++ List.replicate 176 0xff

/-- A representation. -/
def codec : Codec where
  packet b := { fields b with content := enc b }
  bytes p := dec 188 p.content
  patBytes t n := raw 0 n (UInt8.ofNat t.tsId)
  pmtBytes pid t i n := raw pid n (UInt8.ofNat (t.serviceId + i))

theorem faithful : Faithful codec where
  keep b hb := by
    show dec 188 (enc b) = b
    rw [← hb]; exact dec_enc b
  pat t n := raw_length _ _ _
  pmt pid t i n := raw_length _ _ _
  patPid t n := rfl
  patPcr t n := by
    have h : ∀ n, n % 16 < 16 := fun n => Nat.mod_lt _ (by decide)
    have key : ∀ k < 16, (UInt8.ofNat (0x10 + k)).toNat / 32 % 2 = 0 := by decide
    exact if_neg (fun hb => absurd hb.1 (by rw [key _ (h n)]; decide))

/-- The PAT of the stream. -/
def pat : Table :=
  { sourcePid := 0, body := .pat { tsId := 7, pmts := ⟨[(1, 0x100), (2, 0x200)], by decide⟩ } }
/-- A PMT: PCR on 0x1ff, a video stream. -/
def pmt : Table :=
  { sourcePid := 0x100
    body := .pmt { serviceId := 1, pcrPid := 0x1ff
                   streams := ⟨[(0x111, { isVideo := true, tag := some 0 })], by decide⟩ }
    firstPacket := 1 }
/-- The PAT as the service filter rewrites it. -/
def pat1 : Pat := { tsId := 7, pmts := ⟨[(1, 0x100)], by decide⟩ }
/-- The stream. -/
def ps : List (List UInt8) :=
  [ raw 0 0 1, raw 0x100 0 2, raw 0x12 0 3, clk 0x1ff 900100, raw 0x211 0 4, raw 0x111 0 5,
    raw 0 1 1, clk 0x1ff 1800100, raw 0x111 1 6 ]
/-- The tables completed by its packets. -/
def tabs : Nat → List Table
  | 0 => [pat]
  | 1 => [pmt]
  | 2 => [C26ex.eit]
  | _ => []
/-- The tables found behind the service filter. -/
def tabs' : Nat → ServiceFilter.Out → List Table
  | _, .pat p _ => [{ sourcePid := 0, body := .pat p }]
  | _, .orig p => if p.pid = 0x100 then [pmt] else if p.pid = 0x12 then [C26ex.eit] else []
/-- The read operations: not at packet boundaries. -/
def reads : List (List UInt8) := [ps.flatten.take 500, ps.flatten.drop 500]

theorem demuxed : Demuxed codec tabs' where
  source n x t ht := by
    cases x with
    | pat p k =>
      simp only [tabs', List.mem_singleton] at ht
      subst ht; rfl
    | orig p =>
      simp only [tabs'] at ht
      split at ht
      · next h => simp only [List.mem_singleton] at ht; subst ht; exact h.symm
      · split at ht
        · next h => simp only [List.mem_singleton] at ht; subst ht; exact h.symm
        · cases ht
  pat n p k t ht q hq := by
    simp only [tabs', List.mem_singleton] at ht
    subst ht
    simp only [usablePat] at hq
    split at hq
    · cases hq; rfl
    · cases hq

theorem reading : Reading reads ps 2000 where
  fits r hr := by
    have : ∀ r ∈ reads, r.length ≤ 16384 := by decide +kernel
    exact this r hr
  packets := by
    have : streamOf reads = ps.flatten := by decide +kernel
    rw [this]
    exact packets_flatten (by decide +kernel)
  bound := by decide +kernel

end C68ex

/-! Behind the service filter. -/

private theorem listed {c : Codec} {o : ServiceFilter.Opt} {is : List Input}
    {f : ServiceFilter.St} {items : List ServiceFilter.Item}
    (h : ServiceFilter.run o (ServiceFilter.init o) is = .ok (f, items))
    {tabs : Nat → ServiceFilter.Out → List Table} (hd : Demuxed c tabs) {n : Nat}
    {x : ServiceFilter.Out} (hx : x ∈ sent items) {t : Table} (ht : t ∈ tabs n x) {pat : Pat}
    (hp : usablePat t = some pat) :
    ∃ t0 ∈ received items, ∃ pat0 pid, usablePat t0 = some pat0 ∧ (o.sid, pid) ∈ pat0.pmts.entries ∧
      pat.pmts.entries = [(o.sid, pid)] := by
  have hs := ProgramFilter.usable_source hp
  rcases sf_sent h x hx with ⟨i, _, h0, rfl⟩ | ⟨p, k, rfl, t0, ht0, pat0, hu, _, _, _, pid, hm, he⟩
  · exact absurd ((hd.source n _ t ht).symm.trans hs) h0
  · rw [hd.pat n p k t ht pat hp]
    exact ⟨t0, ht0, pat0, pid, hu, hm, he⟩

/-- **C67.**  Whatever the input of the service filter: every usable PAT found in what it
passes on lists exactly the selected service, with a PMT PID at which a PAT received by
the filter lists it; so `HandlePat` of a program filter, recorder or start seeker that
reads it, in any state, fails no assertion on any table found there. -/
theorem C67_protected (c : Codec) (o : ServiceFilter.Opt) (is : List Input)
    (f : ServiceFilter.St) (items : List ServiceFilter.Item)
    (h : ServiceFilter.run o (ServiceFilter.init o) is = .ok (f, items))
    (tabs : Nat → ServiceFilter.Out → List Table) (hd : Demuxed c tabs) (n : Nat)
    (x : ServiceFilter.Out) (hx : (sent items)[n]? = some x) (t : Table) (ht : t ∈ tabs n x) :
    (∀ pat, usablePat t = some pat → ∃ t0 ∈ received items, ∃ pat0 pid,
      usablePat t0 = some pat0 ∧ (o.sid, pid) ∈ pat0.pmts.entries ∧
      pat.pmts.entries = [(o.sid, pid)]) ∧
    (∀ pat, t.body = .pat pat →
      (∀ (o' : ProgramFilter.Opt) s, o'.sid = o.sid → ∃ s', ProgramFilter.handlePat o' s t pat = .ok s') ∧
      (∀ (o' : ServiceRecorder.Opt) s, o'.sid = o.sid →
        ∃ s', ServiceRecorder.handlePat o' s t pat = .ok s') ∧
      (∀ (o' : StartSeeker.Opt) s, o'.sid = o.sid → ∃ s', StartSeeker.handlePat o' s t pat = .ok s')) := by
  have hl := fun pat => @listed c o is f items h tabs hd n x (List.mem_of_getElem? hx) t ht pat
  refine ⟨hl, fun pat hb => ?_⟩
  have hfind : ¬ (t.sourcePid != pidPat) = true → ¬ (!t.valid) = true → ¬ (pat.tsId == 0) = true →
      ∃ pid, pat.pmts.find? o.sid = some pid := by
    intro h1 h2 h3
    obtain ⟨_, _, _, pid, _, _, he⟩ := hl pat (by
      simp only [usablePat, hb]
      rw [if_pos]
      simp only [bne_iff_ne, ne_eq, Decidable.not_not, Bool.not_eq_true', Bool.not_eq_false] at h1 h2
      simp only [beq_iff_eq] at h3
      exact ⟨h1, h2, h3⟩)
    exact ⟨pid, by simp [OMap.find?, he]⟩
  refine ⟨?_, ?_, ?_⟩
  · intro o' s ho
    unfold ProgramFilter.handlePat
    split
    · exact ⟨_, rfl⟩
    · split
      · exact ⟨_, rfl⟩
      · split
        · exact ⟨_, rfl⟩
        · obtain ⟨pid, e⟩ := hfind (by assumption) (by assumption) (by assumption)
          rw [ho, e]
          exact ⟨_, rfl⟩
  · intro o' s ho
    unfold ServiceRecorder.handlePat
    split
    · exact ⟨_, rfl⟩
    · split
      · exact ⟨_, rfl⟩
      · split
        · exact ⟨_, rfl⟩
        · obtain ⟨pid, e⟩ := hfind (by assumption) (by assumption) (by assumption)
          rw [ho, e]
          exact ⟨_, rfl⟩
  · intro o' s ho
    unfold StartSeeker.handlePat
    split
    · exact ⟨_, rfl⟩
    · split
      · exact ⟨_, rfl⟩
      · split
        · exact ⟨_, rfl⟩
        · obtain ⟨pid, e⟩ := hfind (by assumption) (by assumption) (by assumption)
          rw [ho, e]
          exact ⟨_, rfl⟩

/-- The service filter on the stream: packet 4 (another service) is dropped, PAT packets
are replaced; the PAT found behind it lists only the service. -/
example : ∃ f items x, ServiceFilter.run { sid := 1 } (ServiceFilter.init { sid := 1 })
      (seen (input C68ex.codec C68ex.tabs) 0 C68ex.ps) = .ok (f, items) ∧
    (sent items)[0]? = some x ∧ Demuxed C68ex.codec C68ex.tabs' ∧
    (C68ex.tabs' 0 x).map usablePat = [some C68ex.pat1] := by
  obtain ⟨⟨f, items⟩, h1, h2⟩ := ok_of_check
    (r := ServiceFilter.run { sid := 1 } (ServiceFilter.init { sid := 1 })
      (seen (input C68ex.codec C68ex.tabs) 0 C68ex.ps))
    (P := fun r => (sent r.2)[0]? =
      some (.pat C68ex.pat1 0)) (by decide +kernel)
  exact ⟨f, items, _, h1, of_decide_eq_true h2, C68ex.demuxed, rfl⟩

/-- **C68.**  filter-service on a byte stream, if no write fails: it ends normally exactly
if the filter does on the packets of the stream, and then the bytes on standard output
are those of the packets sent by the filter: some packets of the stream dropped, those on
PID 0 replaced by PAT packets.  Reads and writes may be fragmented in any way.  The exit
code is 1 exactly if a usable PAT without the service was received. -/
theorem C68_filter_service (c : Codec) (hc : Faithful c) (tabs : Nat → List Table) (sid : Nat)
    (reads : List (List UInt8)) (ps : List (List UInt8)) (fuel : Nat) (hr : Reading reads ps fuel)
    (writes : List Int) (hw : ∀ w ∈ writes, 0 ≤ w) :
    let is := seen (fun n b => { packet := c.packet b, tables := tabs n }) 0 ps
    let s0 := ServiceFilter.init { sid := sid }
    let r := exec (filterService c tabs sid) fuel reads (0, s0, 0, StdoutSink.init writes)
    ((∃ x, r = .ok x) ↔ ∃ x, ServiceFilter.run { sid := sid } s0 is = .ok x) ∧
    ∀ f items, ServiceFilter.run { sid := sid } s0 is = .ok (f, items) →
      ∃ code n m d, r = .ok (code, n, f, m, d) ∧
        d.out = ((sent items).map (serviceBytes c)).flatten ∧
        Selected c (ps.take items.length) ((sent items).map (serviceBytes c)) ∧
        ((∃ t ∈ received items, Missing sid t) → code = 1) ∧
        ((¬ ∃ t ∈ received items, Missing sid t) → code = 0) := by
  rw [show (fun n b => { packet := c.packet b, tables := tabs n }) = input c tabs from rfl]
  intro is s0 r
  have h188 := packets_188 hr.packets
  have fwd : ∀ f items, ServiceFilter.run { sid := sid } s0 is = .ok (f, items) →
      ∃ code n m d, r = .ok (code, n, f, m, d) ∧
        d.out = ((sent items).map (outBytes c)).flatten ∧
        Selected c (ps.take items.length) ((sent items).map (outBytes c)) ∧
        ((∃ t ∈ received items, Missing sid t) → code = 1) ∧
        ((¬ ∃ t ∈ received items, Missing sid t) → code = 0) := by
    intro f items h
    have hs := sf_selected hc h188 h
    have hl := selected_188 hc hs (fun b hb => h188 b (List.mem_of_mem_take hb))
    obtain ⟨d, ha⟩ := stdout_accepts hw hl
    have ha2 : Accepts (via (fun _ => outBytes c) StdoutSink.sink) (0, StdoutSink.init writes)
        (sent items) (0 + (sent items).length, d) := via_accepts.2 ⟨by rw [seen_const]; exact ha, rfl⟩
    obtain ⟨xs, _, hx⟩ := consumes_via (sf_accept h ha2)
    have he := feedPackets_of hr.yields hr.len
      (snk := filterService c tabs sid) (s := (0, s0, 0, StdoutSink.init writes)) (by rfl) hx (by rfl)
    refine ⟨_, _, _, _, he, stdout_flush hw hl ha, hs, ?_, ?_⟩
    all_goals
      intro hm
      have hI := (ServiceFilter.run_spec _ _ _ [] _ (ServiceFilter.inv_init _) h).1.error
      simp only [List.nil_append] at hI
    · simp [filterService, via, ServiceFilter.sink, StdoutSink.sink, exitSuccess, exitFailure, hI.2 hm]
    · have : f.error = false := by
        cases e : f.error with
        | false => rfl
        | true => exact absurd (hI.1 e) hm
      simp [filterService, via, ServiceFilter.sink, StdoutSink.sink, exitSuccess, exitFailure, this]
  refine ⟨⟨?_, ?_⟩, fwd⟩
  · rintro ⟨⟨code, n, f, m, d⟩, hx⟩
    rcases feedPackets_cases hr.yields hr.len hx with ⟨h, _⟩ | ⟨s1, ⟨k, a⟩, cs, h1, h0, _⟩
    · cases h
    · cases h1
      have h2 := (via_consumes h0).1
      obtain ⟨items, rest, _, h3, _, ⟨_, h4⟩ | h4⟩ := sf_back h2
      · exact ⟨_, h4⟩
      · exfalso
        obtain ⟨h5, _⟩ := via_refuses.1 h4
        rw [seen_const] at h5
        have hcs : ∀ p ∈ cs, p.length = 188 := fun p hp => h188 p ((consumes_prefix h0).subset hp)
        have hs := sf_selected hc hcs h3
        exact stdout_willing hw
          (selected_188 hc hs (fun b hb => hcs b (List.mem_of_mem_take hb))) h5
  · rintro ⟨⟨f, items⟩, h⟩
    obtain ⟨_, _, _, _, h, _⟩ := fwd f items h
    exact ⟨_, h⟩


/-- filter-service on the stream, read in two pieces not at packet boundaries, with short
writes; PAT packets are replaced, the packet of the other service is dropped. -/
example : Faithful C68ex.codec ∧ Reading C68ex.reads C68ex.ps 2000 ∧
    ∃ x, exec (filterService C68ex.codec C68ex.tabs 1) 2000 C68ex.reads
        (0, ServiceFilter.init { sid := 1 }, 0, StdoutSink.init [100, 1, 1000, 5000]) = .ok x ∧
      x.1 = 0 ∧ x.2.2.2.2.out =
        (C68ex.raw 0 0 7 ++ C68ex.raw 0x100 0 2 ++ C68ex.raw 0x12 0 3 ++ C68ex.clk 0x1ff 900100 ++
          C68ex.raw 0x111 0 5 ++ C68ex.raw 0 1 7 ++ C68ex.clk 0x1ff 1800100 ++ C68ex.raw 0x111 1 6) := by
  obtain ⟨x, h1, h2⟩ := ok_of_check
    (r := exec (filterService C68ex.codec C68ex.tabs 1) 2000 C68ex.reads
        (0, ServiceFilter.init { sid := 1 }, 0, StdoutSink.init [100, 1, 1000, 5000]))
    (P := fun x => x.1 = 0 ∧ x.2.2.2.2.out =
        (C68ex.raw 0 0 7 ++ C68ex.raw 0x100 0 2 ++ C68ex.raw 0x12 0 3 ++ C68ex.clk 0x1ff 900100 ++
          C68ex.raw 0x111 0 5 ++ C68ex.raw 0 1 7 ++ C68ex.clk 0x1ff 1800100 ++ C68ex.raw 0x111 1 6))
    (by decide +kernel)
  exact ⟨C68ex.faithful, C68ex.reading, x, h1, of_decide_eq_true h2⟩

theorem Pipeline.error_iff {sid : Nat} {is : List Input} {f : ServiceFilter.St}
    {items : List ServiceFilter.Item}
    (h : ServiceFilter.run { sid := sid } (ServiceFilter.init { sid := sid }) is = .ok (f, items)) :
    f.error = true ↔ ∃ t ∈ received items, Missing sid t := by
  have := (ServiceFilter.run_spec _ _ _ [] _ (ServiceFilter.inv_init _) h).1.error
  simpa using this

/-- **C69.**  The exit code of a command with a sink behind the service filter, on a byte
stream: if the sink does not start it is 1; otherwise it is the exit code of the sink if
that is not 0; otherwise it is 1 if the filter received a usable PAT without the service,
and 0 if not. -/
theorem C69_exit_code {σ : Type} (c : Codec) (tabs : Nat → List Table) (sid : Nat)
    (snk : Sink ServiceFilter.Out σ) (reads ps : List (List UInt8)) (fuel : Nat)
    (hr : Reading reads ps fuel) (d0 d : σ) (code n : Nat) (f : ServiceFilter.St)
    (h : exec (via (arrived c tabs) (ServiceFilter.sink { sid := sid } snk)) fuel reads
      (0, ServiceFilter.init { sid := sid }, d0) = .ok (code, n, f, d)) :
    (snk.start d0 = .ok (false, d) ∧ code = 1) ∨
    ∃ cs items d1 d2, cs <+: ps ∧
      ServiceFilter.run { sid := sid } (ServiceFilter.init { sid := sid })
        (seen (arrived c tabs) 0 cs) = .ok (f, items) ∧
      items.length = cs.length ∧ snk.start d0 = .ok (true, d1) ∧
      Consumes snk d1 (sent items) (sent items) d2 ∧ snk.finish d2 = .ok d ∧
      (snk.exitCode d ≠ 0 → code = snk.exitCode d) ∧
      (snk.exitCode d = 0 → (∃ t ∈ received items, Missing sid t) → code = 1) ∧
      (snk.exitCode d = 0 → (¬ ∃ t ∈ received items, Missing sid t) → code = 0) := by
  rcases behind hr h with ⟨h1, h2, _⟩ | ⟨cs, items, d1, d2, h1, h2, h3, h4, h5, h6, h7⟩
  · exact .inl ⟨h1, h2⟩
  · refine .inr ⟨cs, items, d1, d2, h1, h2, h3, h4, ?_, h5, ?_, ?_, ?_⟩
    · rcases h7 with ⟨h7, _⟩ | h7
      · exact consumes_iff.2 (.inl ⟨rfl, h7⟩)
      · exact consumes_iff.2 (.inr ⟨[], by simp, h7⟩)
    · intro e; rw [h6, if_neg e]
    · intro e hm; rw [h6, if_pos e, if_pos ((Pipeline.error_iff h2).2 hm)]
    · intro e hm
      rw [h6, if_pos e, if_neg (fun hf => hm ((Pipeline.error_iff h2).1 hf))]

/-- The service is missing: exit code 1. -/
example : ∃ x, exec (filterService C68ex.codec C68ex.tabs 3) 2000 C68ex.reads
        (0, ServiceFilter.init { sid := 3 }, 0, StdoutSink.init []) = .ok x ∧ x.1 = 1 := by
  obtain ⟨x, h1, h2⟩ := ok_of_check
    (r := exec (filterService C68ex.codec C68ex.tabs 3) 2000 C68ex.reads
        (0, ServiceFilter.init { sid := 3 }, 0, StdoutSink.init [])) (P := fun x => x.1 = 1)
    (by decide +kernel)
  exact ⟨x, h1, of_decide_eq_true h2⟩

/-- The bytes of what the program filter sends. -/
private theorem program_188 {c : Codec} (hc : Faithful c) {tabs : Nat → List Table}
    {tabs' : Nat → ServiceFilter.Out → List Table} {extra : Pmt → Nat} {o : ProgramFilter.Opt}
    {ps : List (List UInt8)} (hp : ∀ p ∈ ps, p.length = 188) {f : ServiceFilter.St}
    {items : List ServiceFilter.Item}
    (h : ServiceFilter.run { sid := o.sid } (ServiceFilter.init { sid := o.sid })
      (seen (input c tabs) 0 ps) = .ok (f, items)) {g : ProgramFilter.St}
    {items2 : List ProgramFilter.Item}
    (h2 : ProgramFilter.run extra o (ProgramFilter.init o)
      (seen (between c tabs') 0 (sent items)) = .ok (g, items2)) :
    ∀ x ∈ Spec.ProgramFilter.sent items2, (programBytes c x).length = 188 := by
  intro x hx
  cases x with
  | pmt => exact hc.pmt _ _ _ _
  | orig q =>
    refine pf_sent (Q := fun q => (c.bytes q).length = 188) (by intro q hq; cases hq) ?_ h2 q hx
    intro i hi
    obtain ⟨_, y, hy, rfl⟩ := mem_seen hi
    show (c.bytes (outPacket c y)).length = 188
    rw [sf_same hc h y hy]
    exact sf_188 hc hp h y hy

theorem Pipeline.filter_program {c : Codec} (hc : Faithful c) {tabs : Nat → List Table}
    {tabs' : Nat → ServiceFilter.Out → List Table} {extra : Pmt → Nat} {o : ProgramFilter.Opt}
    {reads ps : List (List UInt8)} {fuel : Nat} (hr : Reading reads ps fuel) {writes : List Int}
    (hw : ∀ w ∈ writes, 0 ≤ w) {code n m k : Nat} {f : ServiceFilter.St} {g : ProgramFilter.St}
    {d : StdoutSink.St}
    (h : exec (filterProgram c tabs tabs' extra o) fuel reads
      (0, ServiceFilter.init { sid := o.sid }, 0, ProgramFilter.init o, 0, StdoutSink.init writes) =
      .ok (code, n, f, m, g, k, d)) :
    ∃ cs items items2, cs <+: ps ∧
      ServiceFilter.run { sid := o.sid } (ServiceFilter.init { sid := o.sid })
        (seen (input c tabs) 0 cs) = .ok (f, items) ∧ items.length = cs.length ∧
      ProgramFilter.run extra o (ProgramFilter.init o) (seen (between c tabs') 0 (sent items)) =
        .ok (g, items2) ∧ items2.length = (sent items).length ∧
      d.out = ((Spec.ProgramFilter.sent items2).map (programBytes c)).flatten ∧
      (∀ x ∈ Spec.ProgramFilter.sent items2, (programBytes c x).length = 188) ∧
      (ServiceFilter.run { sid := o.sid } (ServiceFilter.init { sid := o.sid })
        (seen (input c tabs) 0 ps) = .ok (f, items) ∨
        ∃ pre it, items2 = pre ++ [it] ∧ it.more = false) ∧
      code = (if g.retry = true then 222 else if f.error = true then 1 else 0) := by
  rcases behind hr h with ⟨h1, _⟩ | ⟨cs, items, d1, ⟨m2, g2, k2, s2⟩, h1, h2, h3, h4, h5, h6, h7⟩
  · cases h1
  · cases h4
    have h188 : ∀ p ∈ cs, p.length = 188 := fun p hp => packets_188 hr.packets p (h1.subset hp)
    have hl := fun items2 g' => @program_188 c hc tabs tabs' extra o cs h188 f items h2 g' items2
    have hno : ∀ items2 g', ProgramFilter.run extra o (ProgramFilter.init o)
        (seen (between c tabs') 0 (sent items)) = .ok (g', items2) → ∀ xs e,
        xs <+: Spec.ProgramFilter.sent items2 →
        ¬ Refuses (via (fun _ => programBytes c) StdoutSink.sink) (0, StdoutSink.init writes) xs e := by
      intro items2 g' hrun xs e hx hr
      obtain ⟨k3, s3⟩ := e
      obtain ⟨hr, _⟩ := via_refuses.1 hr
      rw [seen_const] at hr
      refine stdout_willing hw (fun p hp => ?_) hr
      obtain ⟨x, hx', rfl⟩ := List.mem_map.1 hp
      exact hl items2 g' hrun x (hx.subset hx')
    have hno2 : ∀ {pre i items2 g' a b}, seen (between c tabs') 0 (sent items) = pre ++ i :: b →
        ProgramFilter.run extra o (ProgramFilter.init o) pre = .ok (g', items2) →
        ¬ StartRefused extra o (via (fun _ => programBytes c) StdoutSink.sink) g' items2 i (0, StdoutSink.init writes) a := by
      rintro pre i items2 g' ⟨k3, s3⟩ b he hrun ⟨j1, _, ys, _, j2, hr⟩
      obtain ⟨hr, _⟩ := via_refuses.1 hr
      rw [seen_const] at hr
      have hall : ∀ j ∈ pre ++ [i], (c.bytes j.packet).length = 188 := by
        intro j hj
        have : j ∈ seen (between c tabs') 0 (sent items) := by
          rw [he]
          rcases List.mem_append.1 hj with hj | hj
          · simp [hj]
          · rw [List.mem_singleton] at hj; simp [hj]
        obtain ⟨_, y, hy, rfl⟩ := mem_seen this
        show (c.bytes (outPacket c y)).length = 188
        rw [sf_same hc h2 y hy]
        exact sf_188 hc h188 h2 y hy
      refine stdout_willing hw (fun p hp => ?_) hr
      obtain ⟨x, hx, rfl⟩ := List.mem_map.1 hp
      rcases List.mem_append.1 hx with hx | hx
      · cases x with
        | pmt => exact hc.pmt _ _ _ _
        | orig q =>
          exact pf_sent (Q := fun q => (c.bytes q).length = 188) (by intro q hq; cases hq)
            (fun j hj => hall j (List.mem_append_left _ hj)) hrun q hx
      · obtain ⟨j, hj, rfl⟩ := ProgramFilter.announced_received hrun j1 i (j2.subset hx)
        exact hall j hj
    have key : ∃ items2, ProgramFilter.run extra o (ProgramFilter.init o)
        (seen (between c tabs') 0 (sent items)) = .ok (g2, items2) ∧
        items2.length = (sent items).length ∧
        Accepts (via (fun _ => programBytes c) StdoutSink.sink) (0, StdoutSink.init writes)
          (Spec.ProgramFilter.sent items2) (k2, s2) ∧
        (ServiceFilter.run { sid := o.sid } (ServiceFilter.init { sid := o.sid })
          (seen (input c tabs) 0 ps) = .ok (f, items) ∨
          ∃ pre it, items2 = pre ++ [it] ∧ it.more = false) := by
      rcases h7 with ⟨h7, h8⟩ | h7
      · obtain ⟨h7, _⟩ := via_accepts.1 h7
        obtain ⟨items2, rest, hrest, ⟨i2, i3, i4⟩ | ⟨pre, i, e, i2, _, i4⟩⟩ := pf_back (consumes_iff.2 (.inl ⟨rfl, h7⟩))
        case inr => exact absurd i4 (hno2 (b := []) e i2)
        rw [seen_length] at i3
        rcases i4 with ⟨i4, _⟩ | ⟨xs, i4, i5⟩
        · exact ⟨items2, i2, i3, i4, .inl h8⟩
        · exact absurd i5 (hno items2 _ i2 xs _ i4)
      · obtain ⟨h7, _⟩ := via_refuses.1 h7
        obtain ⟨items2, ⟨i2, i3, i4⟩ | ⟨pre, i, e, i2, _, i4⟩⟩ := pf_refuses h7
        case inr => exact absurd i4 (hno2 (b := []) e i2)
        rw [seen_length] at i3
        rcases i4 with ⟨i4, i5⟩ | ⟨xs, i4, i5⟩
        · exact ⟨items2, i2, i3, i4, .inr i5⟩
        · exact absurd i5 (hno items2 _ i2 xs _ i4)
    obtain ⟨items2, i1, i2, i3, i4⟩ := key
    obtain ⟨i3, _⟩ := via_accepts.1 i3
    rw [seen_const] at i3
    cases h5
    have hl2 := hl items2 _ i1
    refine ⟨cs, items, items2, h1, h2, h3, i1, i2, ?_, hl2, i4, ?_⟩
    · exact stdout_flush hw (fun p hp => by
        obtain ⟨x, hx, rfl⟩ := List.mem_map.1 hp
        exact hl2 x hx) i3
    · rw [h6]
      cases hg : g2.retry <;>
      simp [via, ProgramFilter.sink, StdoutSink.sink, exitSuccess, exitRetry, hg]

/-- **C69**, filter-program: 222 if the programme was cancelled before it started,
otherwise 1 if the service was missing from a PAT, otherwise 0. -/
theorem C69_filter_program (c : Codec) (hc : Faithful c) (tabs : Nat → List Table)
    (tabs' : Nat → ServiceFilter.Out → List Table) (extra : Pmt → Nat) (o : ProgramFilter.Opt)
    (reads ps : List (List UInt8)) (fuel : Nat) (hr : Reading reads ps fuel) (writes : List Int)
    (hw : ∀ w ∈ writes, 0 ≤ w) (code n m k : Nat) (f : ServiceFilter.St) (g : ProgramFilter.St)
    (d : StdoutSink.St)
    (h : exec (filterProgram c tabs tabs' extra o) fuel reads
      (0, ServiceFilter.init { sid := o.sid }, 0, ProgramFilter.init o, 0, StdoutSink.init writes) =
      .ok (code, n, f, m, g, k, d)) :
    ∃ cs items items2, cs <+: ps ∧
      ServiceFilter.run { sid := o.sid } (ServiceFilter.init { sid := o.sid })
        (seen (arrived c tabs) 0 cs) = .ok (f, items) ∧ items.length = cs.length ∧
      ProgramFilter.run extra o (ProgramFilter.init o) (seen (forwarded c tabs') 0 (sent items)) =
        .ok (g, items2) ∧ items2.length = (sent items).length ∧
      (
        let cancelled := ∃ pre it, items2 = pre ++ [it] ∧
          ¬ Spec.ProgramFilter.Started Spec.ProgramFilter.ReachedNoWrap o pre ∧
          ∃ t ∈ it.handled, Spec.ProgramFilter.Cancels o False t
        (cancelled → code = 222) ∧
        (¬ cancelled → (∃ t ∈ received items, Missing o.sid t) → code = 1) ∧
        (¬ cancelled → (¬ ∃ t ∈ received items, Missing o.sid t) → code = 0)) := by
  obtain ⟨cs, items, items2, h1, h2, h3, h4, h5, _, _, _, h6⟩ := Pipeline.filter_program hc hr hw h
  refine ⟨cs, items, items2, h1, h2, h3, h4, h5, ?_⟩
  have hf := retry_flag h4 (Pipeline.sf_patFree hc h2 h4)
  refine ⟨fun h => ?_, fun h hm => ?_, fun h hm => ?_⟩
  · rw [h6, hf.1 h]; rfl
  · rw [h6, hf.2 h, (Pipeline.error_iff h2).2 hm]; rfl
  · rw [h6, hf.2 h, if_neg (by simp), if_neg (fun e => hm ((Pipeline.error_iff h2).1 e))]

/-- The event 6 is not in the EIT: exit code 222. -/
example : ∃ x, exec (filterProgram C68ex.codec C68ex.tabs C68ex.tabs' C26ex.one
        { C26ex.opt with eid := 6 }) 2000 C68ex.reads
        (0, ServiceFilter.init { sid := 1 }, 0, ProgramFilter.init { C26ex.opt with eid := 6 }, 0,
          StdoutSink.init []) = .ok x ∧ x.1 = 222 := by
  obtain ⟨x, h1, h2⟩ := ok_of_check
    (r := exec (filterProgram C68ex.codec C68ex.tabs C68ex.tabs' C26ex.one
        { C26ex.opt with eid := 6 }) 2000 C68ex.reads
        (0, ServiceFilter.init { sid := 1 }, 0, ProgramFilter.init { C26ex.opt with eid := 6 }, 0,
          StdoutSink.init [])) (P := fun x => x.1 = 222)
    (by decide +kernel)
  exact ⟨x, h1, of_decide_eq_true h2⟩

/-- **C86.**  filter-program on a byte stream, if no write fails: what it writes are the
bytes, in packets of 188, of what the program filter passes on when it is fed what the
service filter passes on when it is fed the packets of the stream; all of them, or up to
the packet at which the program filter stops.  Reads and writes may be fragmented in any
way. -/
theorem C86_filter_program (c : Codec) (hc : Faithful c) (tabs : Nat → List Table)
    (tabs' : Nat → ServiceFilter.Out → List Table) (extra : Pmt → Nat) (o : ProgramFilter.Opt)
    (reads ps : List (List UInt8)) (fuel : Nat) (hr : Reading reads ps fuel) (writes : List Int)
    (hw : ∀ w ∈ writes, 0 ≤ w) (code n m k : Nat) (f : ServiceFilter.St) (g : ProgramFilter.St)
    (d : StdoutSink.St)
    (h : exec (filterProgram c tabs tabs' extra o) fuel reads
      (0, ServiceFilter.init { sid := o.sid }, 0, ProgramFilter.init o, 0, StdoutSink.init writes) =
      .ok (code, n, f, m, g, k, d)) :
    ∃ cs items items2, cs <+: ps ∧
      ServiceFilter.run { sid := o.sid } (ServiceFilter.init { sid := o.sid })
        (seen (arrived c tabs) 0 cs) = .ok (f, items) ∧ items.length = cs.length ∧
      ProgramFilter.run extra o (ProgramFilter.init o) (seen (forwarded c tabs') 0 (sent items)) =
        .ok (g, items2) ∧ items2.length = (sent items).length ∧
      d.out = ((Spec.ProgramFilter.sent items2).map (eventBytes c)).flatten ∧
      (∀ x ∈ Spec.ProgramFilter.sent items2, (eventBytes c x).length = 188) ∧
      (ServiceFilter.run { sid := o.sid } (ServiceFilter.init { sid := o.sid })
        (seen (arrived c tabs) 0 ps) = .ok (f, items) ∨
        ∃ pre it, items2 = pre ++ [it] ∧ it.more = false) := by
  obtain ⟨cs, items, items2, h1, h2, h3, h4, h5, h6, h7, h8, _⟩ := Pipeline.filter_program hc hr hw h
  exact ⟨cs, items, items2, h1, h2, h3, h4, h5, h6, h7, h8⟩


/-- filter-program on the stream: PAT, PMT (generated), the packet that starts the
programme, a packet of the video stream and the next PAT. -/
example : ∃ x, exec (filterProgram C68ex.codec C68ex.tabs C68ex.tabs' C26ex.one C26ex.opt) 2000
        C68ex.reads (0, ServiceFilter.init { sid := 1 }, 0, ProgramFilter.init C26ex.opt, 0,
          StdoutSink.init [3, 5000]) = .ok x ∧
      x.1 = 0 ∧ x.2.2.2.2.2.2.out = (C68ex.raw 0 0 7 ++ C68ex.raw 0x100 0 1 ++
        C68ex.clk 0x1ff 900100 ++ C68ex.raw 0x111 0 5 ++ C68ex.raw 0 1 7) := by
  obtain ⟨x, h1, h2⟩ := ok_of_check
    (r := exec (filterProgram C68ex.codec C68ex.tabs C68ex.tabs' C26ex.one C26ex.opt) 2000
        C68ex.reads (0, ServiceFilter.init { sid := 1 }, 0, ProgramFilter.init C26ex.opt, 0,
          StdoutSink.init [3, 5000]))
    (P := fun x => x.1 = 0 ∧ x.2.2.2.2.2.2.out = (C68ex.raw 0 0 7 ++ C68ex.raw 0x100 0 1 ++
        C68ex.clk 0x1ff 900100 ++ C68ex.raw 0x111 0 5 ++ C68ex.raw 0 1 7))
    (by decide +kernel)
  exact ⟨x, h1, of_decide_eq_true h2⟩

/-- **C87.**  record-service on a byte stream: the recording is that of the recorder fed
with what the service filter passes on when it is fed the packets of the stream, all of
them unless a file operation failed.  (C37 to C42 say what that recording is.)  The exit
code is 1 if a file operation failed or the service was missing from a PAT, otherwise
0. -/
theorem C87_record_service (c : Codec) (hc : Faithful c) (tabs : Nat → List Table)
    (tabs' : Nat → ServiceFilter.Out → List Table) (times : Nat → Int × Int × Int)
    (o : ServiceRecorder.Opt) (hopt : Permitted o.chunkSize o.numChunks o.startPos)
    (reads ps : List (List UInt8)) (fuel : Nat) (hr : Reading reads ps fuel) (results : List Int)
    (h0 : ServiceRecorder.Hist) (hi : ServiceRecorder.init o results = .ok h0) (code n m : Nat)
    (f : ServiceFilter.St) (h : ServiceRecorder.Hist)
    (he : exec (recordService c tabs tabs' times o) fuel reads
      (0, ServiceFilter.init { sid := o.sid }, 0, h0) = .ok (code, n, f, m, h)) :
    ∃ cs items rcode, cs <+: ps ∧
      ServiceFilter.run { sid := o.sid } (ServiceFilter.init { sid := o.sid })
        (seen (arrived c tabs) 0 cs) = .ok (f, items) ∧ items.length = cs.length ∧
      Spec.ServiceRecorder.Recorded o results (seen (stored c tabs' times) 0 (sent items)) rcode h ∧
      (∀ i ∈ seen (stored c tabs' times) 0 (sent items), i.bytes.length = 188) ∧
      (ServiceFilter.run { sid := o.sid } (ServiceFilter.init { sid := o.sid })
        (seen (arrived c tabs) 0 ps) = .ok (f, items) ∨
        .failed ∈ Spec.ServiceRecorder.fileOps h.trace) ∧
      (.failed ∈ Spec.ServiceRecorder.fileOps h.trace → code = 1) ∧
      ((∃ t ∈ received items, Missing o.sid t) → code = 1) ∧
      (.failed ∉ Spec.ServiceRecorder.fileOps h.trace →
        (¬ ∃ t ∈ received items, Missing o.sid t) → code = 0) := by
  rcases behind hr he with ⟨h1, h2, h3⟩ | ⟨cs, items, ⟨m1, d1⟩, ⟨m2, d2⟩, h1, h2, h3, h4, h5, h6, h7⟩
  · simp only [via] at h1
    obtain ⟨⟨ok, d⟩, g, h1⟩ := bind_eq_ok h1
    simp only [Except.ok.injEq, Prod.mk.injEq] at h1
    obtain ⟨rfl, rfl, rfl⟩ := h1
    subst h3
    have hrec : Spec.ServiceRecorder.Recorded o results [] 1 d :=
      ⟨_, listSource, [], 1, h0, listSource_yields _, by simp, hi, by
        simp only [feedPackets, g, ok_bind, Bool.false_eq_true, if_false]; rfl⟩
    have hf : .failed ∈ Spec.ServiceRecorder.fileOps d.trace := by
      rcases C41_reset o results [] 1 d hopt (by simp) hrec with ⟨_, h, _⟩ | ⟨_, _, h, _⟩ | ⟨_, _, _, h⟩
      · exact h
      · exact h
      · cases h
    exact ⟨[], [], 1, List.nil_prefix, rfl, rfl, hrec, by simp [sent, seen], .inr hf, fun _ => h2,
      fun _ => h2, fun h => absurd hf h⟩
  · simp only [via] at h4
    obtain ⟨⟨ok, d⟩, g, h4⟩ := bind_eq_ok h4
    simp only [Except.ok.injEq, Prod.mk.injEq] at h4
    obtain ⟨rfl, rfl, rfl⟩ := h4
    simp only [via] at h5
    obtain ⟨d', g', h5⟩ := bind_eq_ok h5
    simp only [Except.ok.injEq, Prod.mk.injEq] at h5
    obtain ⟨rfl, rfl⟩ := h5
    have h188 : ∀ p ∈ cs, p.length = 188 := fun p hp => packets_188 hr.packets p (h1.subset hp)
    have hb : ∀ i ∈ seen (betweenRec c tabs' times) 0 (sent items), i.bytes.length = 188 := by
      intro i hi
      obtain ⟨_, y, hy, rfl⟩ := mem_seen hi
      exact sf_188 hc h188 h2 y hy
    have mk : ∀ is cs', Consumes (ServiceRecorder.sink o) d is cs' d2 →
        Spec.ServiceRecorder.Recorded o results is ((ServiceRecorder.sink o).exitCode d') d' :=
      fun is cs' hx => ⟨_, listSource, is, is.length + 1, h0, listSource_yields _, by omega, hi,
        feedPackets_of (listSource_yields _) (by omega) g hx g'⟩
    have key : Spec.ServiceRecorder.Recorded o results (seen (betweenRec c tabs' times) 0 (sent items))
        ((ServiceRecorder.sink o).exitCode d') d' ∧
        (ServiceFilter.run { sid := o.sid } (ServiceFilter.init { sid := o.sid })
          (seen (input c tabs) 0 ps) = .ok (f, items) ∨
          .failed ∈ Spec.ServiceRecorder.fileOps d'.trace) := by
      rcases h7 with ⟨h7, h8⟩ | h7
      · obtain ⟨h7, _⟩ := via_accepts.1 h7
        exact ⟨mk _ _ (consumes_iff.2 (.inl ⟨rfl, h7⟩)), .inl h8⟩
      · obtain ⟨h7, _⟩ := via_refuses.1 h7
        have hrec := mk _ _ (consumes_iff.2 (.inr ⟨[], (List.append_nil _).symm, h7⟩))
        refine ⟨hrec, .inr ?_⟩
        generalize seen (betweenRec c tabs' times) 0 (sent items) = is at h7 hb hrec
        have hne : is ≠ [] := by obtain ⟨pre, p, _, rfl, _⟩ := h7; simp
        obtain ⟨i, hi⟩ := List.exists_mem_of_ne_nil is hne
        have hrec2 := mk (is ++ [i]) is (consumes_iff.2 (.inr ⟨_, rfl, h7⟩))
        have hb2 : ∀ j ∈ is ++ [i], j.bytes.length = 188 := by
          intro j hj
          rcases List.mem_append.1 hj with hj | hj
          · exact hb j hj
          · rw [List.mem_singleton.1 hj]; exact hb i hi
        have a1 := C40_recorded o results _ _ d' hopt hb2 hrec2
        have a2 := C40_recorded o results _ _ d' hopt hb hrec
        rcases C41_reset o results _ _ d' hopt hb hrec with ⟨_, h, _⟩ | ⟨_, _, h, _⟩ | ⟨hs, _, h, _⟩
        · exact h
        · exact h
        · exfalso
          have hstart : .start ∈ Spec.ServiceRecorder.messages d'.trace := by
            rcases C37_message_order o results _ _ d' hrec with ⟨e, _⟩ | ⟨_, ms, r, e, _⟩
            · rw [e] at hs; cases hs
            · rw [e]; simp
          have e1 := (a1.2.2.2 hstart h).1
          have e2 := (a2.2.2.2 hstart h).1
          rw [e2] at e1
          have := congrArg List.length e1
          simp at this
    have hcode := C41_reset o results _ _ d' hopt hb key.1
    refine ⟨cs, items, _, h1, h2, h3, key.1, hb, key.2, ?_, ?_, ?_⟩
    · intro hf
      have : (ServiceRecorder.sink o).exitCode d' = 1 := by
        rcases hcode with ⟨_, _, h⟩ | ⟨_, _, _, h⟩ | ⟨_, _, h, _⟩
        · exact h
        · exact h
        · exact absurd hf h
      rw [h6]
      simp [via, this]
    · intro hm
      have := (Pipeline.error_iff h2).2 hm
      rw [h6]
      have : (ServiceRecorder.sink o).exitCode d' = 1 ∨ (ServiceRecorder.sink o).exitCode d' = 0 := by
        rcases hcode with ⟨_, _, h⟩ | ⟨_, _, _, h⟩ | ⟨_, _, _, h⟩
        · exact .inl h
        · exact .inl h
        · exact .inr h
      rcases this with h | h <;> simp [via, h, *]
    · intro hf hm
      have : (ServiceRecorder.sink o).exitCode d' = 0 := by
        rcases hcode with ⟨_, h, _⟩ | ⟨_, _, h, _⟩ | ⟨_, _, _, h⟩
        · exact absurd h hf
        · exact absurd h hf
        · exact h
      have he : f.error = false := by
        cases e : f.error with
        | false => rfl
        | true => exact absurd ((Pipeline.error_iff h2).1 e) hm
      rw [h6]
      simp [via, this, he]

/-- record-service on the stream. -/
example : Permitted C37ex.opt.chunkSize C37ex.opt.numChunks C37ex.opt.startPos ∧
    ∃ h0 x, ServiceRecorder.init C37ex.opt [] = .ok h0 ∧
      exec (recordService C68ex.codec C68ex.tabs C68ex.tabs' (fun _ => (0, 0, 0)) C37ex.opt) 2000
        C68ex.reads (0, ServiceFilter.init { sid := 1 }, 0, h0) = .ok x ∧
      x.1 = 0 ∧ x.2.2.2.2.items.length = 8 := by
  obtain ⟨h0, e0⟩ : ∃ h0, ServiceRecorder.init C37ex.opt [] = .ok h0 := ⟨_, rfl⟩
  obtain ⟨x, h1, h2⟩ := ok_of_check
    (r := ServiceRecorder.init C37ex.opt [] >>= fun h0 =>
      exec (recordService C68ex.codec C68ex.tabs C68ex.tabs' (fun _ => (0, 0, 0)) C37ex.opt) 2000
        C68ex.reads (0, ServiceFilter.init { sid := 1 }, 0, h0))
    (P := fun x => x.1 = 0 ∧ x.2.2.2.2.items.length = 8) (by decide +kernel)
  rw [e0, ok_bind] at h1
  exact ⟨C37ex.permitted, h0, x, e0, h1, of_decide_eq_true h2⟩

private theorem consumes_fail {P σ : Type} {snk : Sink P σ} {s s1 s' : σ} {a b cs : List P} {p : P}
    {e : Fault} (h : Accepts snk s a s1) (he : snk.handle s1 p = .error e) :
    ¬ Consumes snk s (a ++ p :: b) cs s' := by
  induction h generalizing cs with
  | nil => intro h; cases h <;> simp_all
  | cons h _ ih => intro hc; cases hc <;> simp_all

private theorem seek_error {o : StartSeeker.Opt} : ∀ {is : List Input} {s : StartSeeker.St} {e : Fault},
    StartSeeker.run o s is = .error e → ∃ a i b s1 items, is = a ++ i :: b ∧
      StartSeeker.run o s a = .ok (s1, items) ∧ ∃ e', StartSeeker.step o s1 i = .error e' := by
  intro is
  induction is with
  | nil => intro s e h; cases h
  | cons i is ih =>
    intro s e h
    cases h1 : StartSeeker.step o s i with
    | error e => exact ⟨[], i, is, s, [], rfl, rfl, e, h1⟩
    | ok r =>
      obtain ⟨s1, log, act⟩ := r
      simp only [StartSeeker.run, h1, ok_bind] at h
      cases h2 : StartSeeker.run o s1 is with
      | error e =>
        obtain ⟨a, j, b, s2, items, rfl, h3, h4⟩ := ih h2
        exact ⟨i :: a, j, b, s2, ⟨i.packet, log, act⟩ :: items, rfl, by simp only [StartSeeker.run, h1, ok_bind, h3], h4⟩
      | ok r => rw [h2] at h; cases h

/-- **C88.**  seek-start on a byte stream, if no write fails: it ends normally exactly if
the seeker does on the packets of the stream, then with exit code 0, and writes the bytes
of the packets that the seeker passes on or still holds at the end. -/
theorem C88_seek_start (c : Codec) (hc : Faithful c) (tabs : Nat → List Table) (o : StartSeeker.Opt)
    (reads : List (List UInt8)) (ps : List (List UInt8)) (fuel : Nat) (hr : Reading reads ps fuel)
    (writes : List Int) (hw : ∀ w ∈ writes, 0 ≤ w) :
    let is := seen (arrived c tabs) 0 ps
    let r := exec (seekStart c tabs o) fuel reads (0, StartSeeker.init, 0, StdoutSink.init writes)
    ((∃ x, r = .ok x) ↔ ∃ x, StartSeeker.run o StartSeeker.init is = .ok x) ∧
    ∀ s items, StartSeeker.run o StartSeeker.init is = .ok (s, items) →
      ∃ n s' m d, r = .ok (0, n, s', m, d) ∧
        d.out = ((Spec.StartSeeker.sent items ++ s.packets).map c.bytes).flatten := by
  intro is r
  have h188 := packets_188 hr.packets
  have hq : ∀ i ∈ is, (c.bytes i.packet).length = 188 := by
    intro i hi
    obtain ⟨_, b, hb, rfl⟩ := mem_seen hi
    simp only [arrived]
    rw [hc.keep b (h188 b hb)]; exact h188 b hb
  have hsent : ∀ a s items, (∀ i ∈ a, i ∈ is) → StartSeeker.run o StartSeeker.init a = .ok (s, items) →
      ∀ p ∈ (Spec.StartSeeker.sent items ++ s.packets).map c.bytes, p.length = 188 := by
    intro a s items ha h p hp
    obtain ⟨q, hq', rfl⟩ := List.mem_map.1 hp
    have := seek_sent (Q := fun q => (c.bytes q).length = 188) (by intro q hq; cases hq)
      (fun i hi => hq i (ha i hi)) h
    rcases List.mem_append.1 hq' with h | h
    · exact this.1 q h
    · exact this.2 q h
  have acc : ∀ a s items, (∀ i ∈ a, i ∈ is) → StartSeeker.run o StartSeeker.init a = .ok (s, items) →
      ∃ d d', Accepts StdoutSink.sink (StdoutSink.init writes)
          ((Spec.StartSeeker.sent items ++ s.packets).map c.bytes) d' ∧
        Accepts (StartSeeker.sink o (via (fun _ => c.bytes) StdoutSink.sink))
          (StartSeeker.init, 0, StdoutSink.init writes) a (s, (Spec.StartSeeker.sent items).length, d) ∧
        Accepts StdoutSink.sink d (s.packets.map c.bytes) d' := by
    intro a s items ha h
    obtain ⟨d', hd'⟩ := stdout_accepts hw (hsent a s items ha h)
    have h2 := hd'
    rw [List.map_append] at h2
    obtain ⟨d, h3, h4⟩ := accepts_split h2
    refine ⟨d, d', hd', seek_accept h (via_accepts.2 ⟨by rw [seen_const]; exact h3, by simp⟩), h4⟩
  have fwd : ∀ s items, StartSeeker.run o StartSeeker.init is = .ok (s, items) →
      ∃ n s' m d, r = .ok (0, n, s', m, d) ∧
        d.out = ((Spec.StartSeeker.sent items ++ s.packets).map c.bytes).flatten := by
    intro s items h
    obtain ⟨d, d', h1, h2, h3⟩ := acc is s items (fun _ h => h) h
    have h4 : Accepts (via (fun _ => c.bytes) StdoutSink.sink) ((Spec.StartSeeker.sent items).length, d)
        s.packets ((Spec.StartSeeker.sent items).length + s.packets.length, d') :=
      via_accepts.2 ⟨by rw [seen_const]; exact h3, rfl⟩
    have hfin : (StartSeeker.sink o (via (fun _ => c.bytes) StdoutSink.sink)).finish
        (s, (Spec.StartSeeker.sent items).length, d) = .ok ({ s with packets := [] },
        (Spec.StartSeeker.sent items).length + s.packets.length, (StdoutSink.flush d').2) := by
      simp only [StartSeeker.sink, seek_sendAll h4, ok_bind]
      rfl
    have he := feedPackets_of hr.yields hr.len
      (snk := seekStart c tabs o) (s := (0, StartSeeker.init, 0, StdoutSink.init writes)) (by rfl)
      (consumes_iff.2 (.inl ⟨rfl, via_accepts.2 ⟨h2, rfl⟩⟩))
      (s' := (0 + ps.length, { s with packets := [] },
        (Spec.StartSeeker.sent items).length + s.packets.length, (StdoutSink.flush d').2))
      (by
        show ((StartSeeker.sink o (via (fun _ => c.bytes) StdoutSink.sink)).finish
          (s, (Spec.StartSeeker.sent items).length, d) >>= fun d => .ok (0 + ps.length, d)) = _
        rw [hfin]; rfl)
    refine ⟨_, _, _, _, he, stdout_flush hw (hsent is s items (fun _ h => h) h) h1⟩
  refine ⟨⟨?_, ?_⟩, fwd⟩
  · rintro ⟨⟨code, n, f, m, d⟩, hx⟩
    rcases feedPackets_cases hr.yields hr.len hx with ⟨h, _⟩ | ⟨s1, ⟨k, x⟩, cs, h1, h0, _⟩
    · cases h
    · cases h1
      have h2 := (via_consumes h0).1
      cases hrun : StartSeeker.run o StartSeeker.init is with
      | ok x => exact ⟨x, rfl⟩
      | error e =>
        exfalso
        obtain ⟨a, i, b, s1, items, e1, h3, e', h4⟩ := seek_error hrun
        obtain ⟨d, _, _, h5, _⟩ := acc a s1 items (by intro i hi; rw [e1]; simp [hi]) h3
        have h2 : Consumes _ _ is _ _ := h2
        rw [e1] at h2
        exact consumes_fail (e := e') h5 (by simp only [StartSeeker.sink, h4, error_bind]) h2
  · rintro ⟨⟨s, items⟩, h⟩
    obtain ⟨_, _, _, _, h, _⟩ := fwd s items h
    exact ⟨_, h⟩


/-- **C88**, bytes: under the conditions of C34, seek-start writes all packets of the
stream unchanged, or the packet of a PAT followed by all packets from a later one on. -/
theorem C88_bytes (c : Codec) (hc : Faithful c) (tabs : Nat → List Table) (o : StartSeeker.Opt)
    (reads : List (List UInt8)) (ps : List (List UInt8)) (fuel : Nat) (hr : Reading reads ps fuel)
    (writes : List Int) (hw : ∀ w ∈ writes, 0 ≤ w)
    (s : StartSeeker.St) (items : List StartSeeker.Item)
    (h : StartSeeker.run o StartSeeker.init (seen (arrived c tabs) 0 ps) = .ok (s, items))
    (hp : Spec.StartSeeker.Placed items) (hf : Spec.StartSeeker.Fresh o items) :
    ∃ n s' m d, exec (seekStart c tabs o) fuel reads
        (0, StartSeeker.init, 0, StdoutSink.init writes) = .ok (0, n, s', m, d) ∧
      (d.out = ps.flatten ∨ ∃ j k b, j < k ∧ k < ps.length ∧ ps[j]? = some b ∧
        (c.packet b).pid = 0 ∧ d.out = b ++ (ps.drop k).flatten) := by
  obtain ⟨n, s', m, d, h1, h2⟩ := (C88_seek_start c hc tabs o reads ps fuel hr writes hw).2 s items h
  have h188 := packets_188 hr.packets
  have hmap : ∀ l : List (List UInt8), (∀ b ∈ l, b.length = 188) → (l.map c.packet).map c.bytes = l := by
    intro l hl
    rw [List.map_map]
    conv => rhs; rw [← List.map_id l]
    exact List.map_congr_left (fun b hb => hc.keep b (hl b hb))
  refine ⟨n, s', m, d, h1, ?_⟩
  have hseen : (seen (arrived c tabs) 0 ps).map (·.packet) = ps.map c.packet := seen_input c tabs ps 0
  rcases C34_output o _ s items h hp hf with e | ⟨pre, it, post, k, j, q, e0, _, _, _, e4, e5, e6, e7, e8⟩
  · left
    rw [h2, e, hseen, hmap _ h188]
  · right
    rw [hseen] at e6 e8
    rw [List.getElem?_map] at e6
    obtain ⟨b, hb, rfl⟩ := Option.map_eq_some_iff.1 e6
    have hlen := (StartSeeker.run_seeking _ StartSeeker.init s [] items (StartSeeker.seeking_init o) (by simp [Spec.StartSeeker.Held]) h).1
    have hk : k < ps.length := by
      have := congrArg List.length hlen
      simp only [List.length_map, seen_length, e0, Spec.StartSeeker.packets, List.length_append, List.length_cons] at this
      omega
    refine ⟨j, k, b, e4, hk, hb, e7, ?_⟩
    rw [h2, e8, List.map_cons, hc.keep b (h188 b (List.mem_of_getElem? hb)), ← List.map_drop,
      hmap _ (fun b hb => h188 b (List.mem_of_mem_drop hb)), List.flatten_cons]

/-- The tables completed by the packets, as seek-start needs them. -/
def C88ex.tabs : Nat → List Table
  | 0 => [C68ex.pat]
  | 1 => [C68ex.pmt]
  | _ => []

/-- seek-start on the stream, at most 4 packets held: everything is written. -/
theorem C88ex.run : ∃ s items, StartSeeker.run { sid := 1, maxDuration := 1000, maxPackets := 4 }
      StartSeeker.init (seen (input C68ex.codec C88ex.tabs) 0 C68ex.ps) = .ok (s, items) ∧
    Spec.StartSeeker.Placed items ∧
    Spec.StartSeeker.Fresh { sid := 1, maxDuration := 1000, maxPackets := 4 } items ∧
    ∃ x, exec (seekStart C68ex.codec C88ex.tabs { sid := 1, maxDuration := 1000, maxPackets := 4 })
        2000 C68ex.reads (0, StartSeeker.init, 0, StdoutSink.init [7]) = .ok x ∧
      x.2.2.2.2.out = C68ex.ps.flatten := by
  obtain ⟨⟨s, items⟩, h1, h2⟩ := ok_of_check
    (r := StartSeeker.run { sid := 1, maxDuration := 1000, maxPackets := 4 }
      StartSeeker.init (seen (input C68ex.codec C88ex.tabs) 0 C68ex.ps))
    (P := fun r => r.2.map (·.handled) = [[C68ex.pat], [C68ex.pmt], [], [], [], [], [], [], []] ∧
      r.2.map (·.packet) = C68ex.ps.map C68ex.codec.packet) (by decide +kernel)
  obtain ⟨e1, e2⟩ := of_decide_eq_true h2
  obtain ⟨x, h3, h4⟩ := ok_of_check
    (r := exec (seekStart C68ex.codec C88ex.tabs { sid := 1, maxDuration := 1000, maxPackets := 4 })
        2000 C68ex.reads (0, StartSeeker.init, 0, StdoutSink.init [7]))
    (P := fun x => x.2.2.2.2.out = C68ex.ps.flatten) (by decide +kernel)
  have hh : ∀ n it, items[n]? = some it → ∀ t ∈ it.handled, (n = 0 ∧ t = C68ex.pat) ∨ (n = 1 ∧ t = C68ex.pmt) := by
    intro n it hn t ht
    have hn' : (items.map (·.handled))[n]? = some it.handled := by rw [List.getElem?_map, hn]; rfl
    rw [show items.map (·.handled) = _ from e1] at hn'
    match n with
    | 0 => simp at hn'; rw [← hn'] at ht; exact .inl ⟨rfl, List.mem_singleton.1 ht⟩
    | 1 => simp at hn'; rw [← hn'] at ht; exact .inr ⟨rfl, List.mem_singleton.1 ht⟩
    | 2 | 3 | 4 | 5 | 6 | 7 | 8 => simp at hn'; rw [hn'] at ht; cases ht
    | n + 9 => simp at hn'
  refine ⟨s, items, h1, ?_, ?_, x, h3, of_decide_eq_true h4⟩
  · intro pre it post e t ht
    have hp : Spec.StartSeeker.packets items = C68ex.ps.map C68ex.codec.packet := e2
    rw [hp]
    have h0 : (C68ex.ps.map C68ex.codec.packet)[0]?.map (·.pid) = some 0 := by decide +kernel
    have h1 : (C68ex.ps.map C68ex.codec.packet)[1]?.map (·.pid) = some 0x100 := by decide +kernel
    generalize C68ex.ps.map C68ex.codec.packet = l at h0 h1
    rcases hh pre.length it (by rw [e]; simp) t ht with ⟨h, rfl⟩ | ⟨h, rfl⟩
    · refine ⟨by rw [h]; exact Nat.le_refl 0, fun p hp => ?_⟩
      rw [show l[0]? = some p from hp] at h0
      exact Option.some.inj h0
    · refine ⟨by rw [h]; exact Nat.le_refl 1, fun p hp => ?_⟩
      rw [show l[1]? = some p from hp] at h1
      exact Option.some.inj h1
  · intro pre it post e t ht hv
    rcases hh pre.length it (by rw [e]; simp) t ht with ⟨_, rfl⟩ | ⟨h, rfl⟩
    · exact absurd rfl hv
    · refine ⟨by decide, fun a j b e _ => ?_⟩
      rw [e] at h
      simp at h
      show a.length < 1
      omega

/-- **C89.**  record-service on a byte stream never terminates abnormally if the tables of
the stream conform and its PCRs are valid, whatever tables are found behind the service
filter, whatever happens to the file. -/
theorem C89_record_service (c : Codec) (hc : Faithful c) (tabs : Nat → List Table)
    (tabs' : Nat → ServiceFilter.Out → List Table) (hd : Demuxed c tabs')
    (times : Nat → Int × Int × Int)
    (o : ServiceRecorder.Opt) (hopt : Permitted o.chunkSize o.numChunks o.startPos)
    (reads ps : List (List UInt8)) (fuel : Nat) (hr : Reading reads ps fuel) (results : List Int)
    (hx : ∀ b ∈ ps, ∀ x, (c.packet b).pcr = some x → 0 ≤ x ∧ x < 2 ^ 33 * 300)
    (ht : ∀ n, ∀ t ∈ tabs n, Spec.ServiceFilter.Conforming o.sid t) :
    ∃ h0 x, ServiceRecorder.init o results = .ok h0 ∧
      exec (recordService c tabs tabs' times o) fuel reads
        (0, ServiceFilter.init { sid := o.sid }, 0, h0) = .ok x := by
  have h188 := packets_188 hr.packets
  obtain ⟨⟨f, items⟩, h⟩ := (C25_no_abort_partial { sid := o.sid } (seen (input c tabs) 0 ps) (by
    intro i hi t hit
    obtain ⟨n, b, _, rfl⟩ := mem_seen hi
    exact ht n t hit)).1
  have hsent := sf_sent h
  obtain ⟨h0, code, hh, h1, h2⟩ := C42_no_abort_partial o results
    (seen (betweenRec c tabs' times) 0 (sent items)) hopt (by
      intro i hi
      obtain ⟨_, y, hy, rfl⟩ := mem_seen hi
      exact sf_188 hc h188 h y hy) (by
      intro i hi x hix
      obtain ⟨_, y, hy, rfl⟩ := mem_seen hi
      rcases hsent y hy with ⟨j, hj, _, rfl⟩ | ⟨p, k, rfl, _⟩
      · obtain ⟨_, b, hb, rfl⟩ := mem_seen hj
        exact hx b hb x hix
      · have : (c.packet (c.patBytes p k)).pcr = some x := hix
        rw [hc.patPcr] at this; cases this) (by
      intro i hi t hit pat hp
      obtain ⟨n, y, hy, rfl⟩ := mem_seen hi
      obtain ⟨_, _, _, pid, _, _, e⟩ := listed h hd hy hit hp
      exact ⟨pid, by rw [e]; simp⟩) _ listSource _ ((sent items).length + 1) (listSource_yields _)
      (by rw [seen_length]; omega)
  refine ⟨h0, ?_⟩
  rcases feedPackets_cases (listSource_yields _) (by rw [seen_length]; omega) h2 with
    ⟨g, _⟩ | ⟨d1, d2, cs, g1, g2, g3, _⟩
  · exact ⟨_, h1, by
      simp only [exec, feedPackets, recordService, via, ServiceFilter.sink, g, ok_bind,
        Bool.false_eq_true, if_false]
      rfl⟩
  · obtain ⟨ys, _, hy⟩ := consumes_via g2
    obtain ⟨x, hx⟩ := behind_total hr (snk := via (betweenRec c tabs' times) (ServiceRecorder.sink o))
      (d0 := (0, h0)) (d1 := (0, d1)) (d := (0 + ys.length, hh)) h
      (by simp only [via, g1, ok_bind]) hy (by simp only [via, g3, ok_bind])
    exact ⟨x, h1, hx⟩

theorem C89ex.conforming : ∀ n, ∀ t ∈ C68ex.tabs n, Spec.ServiceFilter.Conforming 1 t := by
  intro n t ht
  have ht : t = C68ex.pat ∨ t = C68ex.pmt ∨ t = C26ex.eit := by
    match n with
    | 0 => exact .inl (List.mem_singleton.1 ht)
    | 1 => exact .inr (.inl (List.mem_singleton.1 ht))
    | 2 => exact .inr (.inr (List.mem_singleton.1 ht))
    | n + 3 => cases ht
  rcases ht with rfl | rfl | rfl
  · refine ⟨?_, (by intro _ h; cases h), (by intro _ h; cases h), (by intro _ h; cases h)⟩
    intro pat hp pid hm
    cases hp
    simp [C68ex.pat] at hm
    subst hm
    decide
  · refine ⟨(by intro _ h; cases h), (by intro _ h; cases h), ?_, (by intro _ h; cases h)⟩
    intro p hp pid hm
    simp [validPmt, C68ex.pmt] at hp
    subst hp
    have hca : ∀ x, ¬ Spec.ServiceFilter.CaPid [] x := by
      rintro x ⟨d, hd, _⟩; cases hd
    rcases hm with h | h | ⟨_, h⟩
    · rw [h]; decide
    · exact absurd h (hca _)
    · simp at h; rw [h.1]; decide
  · refine ⟨(by intro _ h; cases h), (by intro _ h; cases h), (by intro _ h; cases h), (by intro _ h; cases h)⟩

theorem C89ex.pcr : ∀ b ∈ C68ex.ps, ∀ x, (C68ex.codec.packet b).pcr = some x →
    0 ≤ x ∧ x < 2 ^ 33 * 300 := by
  have : ∀ b ∈ C68ex.ps, (C68ex.codec.packet b).pcr = none ∨
      (C68ex.codec.packet b).pcr = some 270030000 ∨ (C68ex.codec.packet b).pcr = some 540030000 := by
    decide +kernel
  intro b hb x hx
  rcases this b hb with h | h | h <;> rw [h] at hx <;> cases hx <;> decide

/-- The stream meets the hypotheses. -/
example : (∀ n, ∀ t ∈ C68ex.tabs n, Spec.ServiceFilter.Conforming C37ex.opt.sid t) ∧
    (∀ b ∈ C68ex.ps, ∀ x, (C68ex.codec.packet b).pcr = some x → 0 ≤ x ∧ x < 2 ^ 33 * 300) :=
  ⟨C89ex.conforming, C89ex.pcr⟩

/-- **C89**, filter-program.  If the tables of the stream conform, its PCRs and the clock PCR
given are valid, the PMT stays on one PID and times and margins are within 2500 years, filter-program does not terminate abnormally,
whether writes fail or not. -/
theorem C89_filter_program (c : Codec) (hc : Faithful c) (tabs : Nat → List Table)
    (tabs' : Nat → ServiceFilter.Out → List Table) (hd : Demuxed c tabs') (extra : Pmt → Nat)
    (o : ProgramFilter.Opt) (reads ps : List (List UInt8)) (fuel : Nat) (hr : Reading reads ps fuel)
    (writes : List Int) (pmtPid : Nat)
    (hP : pmtPid ≠ 0 ∧ pmtPid ≠ 0x12 ∧ pmtPid ≠ 0x14 ∧ pmtPid ≠ 0x1FFF)
    (ho : 0 ≤ o.clockPcr ∧ o.clockPcr < 2 ^ 33 * 300)
    (hn : Near o.clockTime ∧ Near o.startMargin ∧ Near o.endMargin)
    (htm : ∀ n x, ∀ t ∈ tabs' n x, Spec.ProgramFilter.Timely o.sid t)
    (hx : ∀ b ∈ ps, ∀ x, (c.packet b).pcr = some x → 0 ≤ x ∧ x < 2 ^ 33 * 300)
    (ht : ∀ n, ∀ t ∈ tabs n, Spec.ServiceFilter.Conforming o.sid t)
    (hpat : ∀ n, ∀ t ∈ tabs n, ∀ pat, usablePat t = some pat →
      ∀ pid, (o.sid, pid) ∈ pat.pmts.entries → pid = pmtPid)
    (hpmt : ∀ n x, ∀ t ∈ tabs' n x, ∀ pmt, validPmt o.sid t = some pmt → t.sourcePid = pmtPid) :
    ∃ x, exec (filterProgram c tabs tabs' extra o) fuel reads
      (0, ServiceFilter.init { sid := o.sid }, 0, ProgramFilter.init o, 0, StdoutSink.init writes) =
      .ok x := by
  have h188 := packets_188 hr.packets
  obtain ⟨⟨f, items⟩, h⟩ := (C25_no_abort_partial { sid := o.sid } (seen (input c tabs) 0 ps) (by
    intro i hi t hit
    obtain ⟨n, b, _, rfl⟩ := mem_seen hi
    exact ht n t hit)).1
  have hsent := sf_sent h
  have hrecv : ∀ t ∈ received items, ∃ n, t ∈ tabs n := by
    intro t htr
    obtain ⟨it, hit, hti⟩ := List.mem_flatMap.1 htr
    obtain ⟨pre, post, rfl⟩ := List.append_of_mem hit
    obtain ⟨s1, s2, i, h1, h2, h3, h4, h5, h6⟩ :=
      (ServiceFilter.run_spec _ _ _ [] _ (ServiceFilter.inv_init _) h).2 pre it post rfl
    unfold ServiceFilter.step at h3
    obtain ⟨⟨s3, log⟩, h7, h3⟩ := bind_eq_ok h3
    have e : log = it.handled := by
      dsimp only at h3
      split at h3
      · simp only [Except.ok.injEq, Prod.mk.injEq] at h3; exact h3.2.1
      · split at h3
        · simp only [Except.ok.injEq, Prod.mk.injEq] at h3; exact h3.2.1
        · split at h3
          · split at h3
            · cases h3
            · simp only [Except.ok.injEq, Prod.mk.injEq] at h3; exact h3.2.1
          · obtain ⟨_, _, h3⟩ := bind_eq_ok h3
            simp only [Except.ok.injEq, Prod.mk.injEq] at h3; exact h3.2.1
    rw [← e] at hti
    have hti := (feedDemux_log _ _ _ _ h7 t hti).1
    obtain ⟨n, _, _, rfl⟩ := mem_seen (List.mem_of_getElem? h2)
    exact ⟨n, hti⟩
  obtain ⟨⟨g, items2⟩, h2⟩ := (C32_no_abort_partial extra o (seen (between c tabs') 0 (sent items))
    pmtPid hP ho hn (by
      intro i hi
      obtain ⟨n, y, hy, rfl⟩ := mem_seen hi
      refine ⟨fun t hit => ⟨fun pat hp => ?_, fun pmt hp => hpmt n y t hit pmt hp, htm n y t hit⟩, fun x hix => ?_⟩
      · obtain ⟨t0, ht0, pat0, pid, hu, hm, e⟩ := listed h hd hy hit hp
        obtain ⟨n0, hn0⟩ := hrecv t0 ht0
        rw [e, hpat n0 t0 hn0 pat0 hu pid hm]; simp
      · rcases hsent y hy with ⟨j, hj, _, rfl⟩ | ⟨p, k, rfl, _⟩
        · obtain ⟨_, b, hb, rfl⟩ := mem_seen hj
          exact hx b hb x hix
        · have : (c.packet (c.patBytes p k)).pcr = some x := hix
          rw [hc.patPcr] at this; cases this)).1
  have hl : ∀ p ∈ (Spec.ProgramFilter.sent items2).map (programBytes c), p.length = 188 := by
    intro p hp
    obtain ⟨x, hx, rfl⟩ := List.mem_map.1 hp
    exact program_188 hc h188 h h2 x hx
  obtain ⟨cs, s2, d2, hcs, _⟩ := pf_robust (d := (0, StdoutSink.init writes))
    (stdout_robust.via (programBytes c)) h2 (by simp [StdoutSink.init])
    (fun x hx => hl _ (List.mem_map_of_mem hx))
  obtain ⟨ys, _, hy⟩ := consumes_via hcs
  exact behind_total hr
    (snk := via (between c tabs') (ProgramFilter.sink extra o (via (fun _ => programBytes c) StdoutSink.sink)))
    h (by rfl) hy (by rfl)

/-- The stream meets the hypotheses, with the PMT on PID 0x100. -/
theorem C89ex.onePid : (∀ n, ∀ t ∈ C68ex.tabs n, ∀ pat, usablePat t = some pat →
      ∀ pid, (1, pid) ∈ pat.pmts.entries → pid = 0x100) ∧
    (∀ n x, ∀ t ∈ C68ex.tabs' n x, ∀ pmt, validPmt 1 t = some pmt → t.sourcePid = 0x100) := by
  constructor
  · intro n t ht pat hp pid hm
    match n with
    | 0 =>
      rw [List.mem_singleton.1 ht] at hp
      cases hp
      simpa [C68ex.pat] using hm
    | 1 => rw [List.mem_singleton.1 ht] at hp; cases hp
    | 2 => rw [List.mem_singleton.1 ht] at hp; cases hp
    | n + 3 => cases ht
  · intro n x t ht pmt hp
    cases x with
    | pat p k => rw [List.mem_singleton.1 ht] at hp; cases hp
    | orig p =>
      simp only [C68ex.tabs'] at ht
      split at ht
      · rw [List.mem_singleton.1 ht]; rfl
      · split at ht
        · rw [List.mem_singleton.1 ht] at hp; cases hp
        · cases ht

/-- Its times are near. -/
theorem C89ex.timely : ∀ n x, ∀ t ∈ C68ex.tabs' n x, Spec.ProgramFilter.Timely 1 t := by
  intro n x t ht
  cases x with
  | pat p k =>
    rw [List.mem_singleton.1 ht]
    exact ⟨fun _ h => (by cases h), fun _ h => (by cases h)⟩
  | orig p =>
    simp only [C68ex.tabs'] at ht
    split at ht
    · rw [List.mem_singleton.1 ht]
      exact ⟨fun _ h => (by cases h), fun _ h => (by cases h)⟩
    · split at ht
      · rw [List.mem_singleton.1 ht]
        exact ⟨fun _ h => (by cases h), fun es h => (by cases h; simp [Near])⟩
      · cases ht

/-- **C89**, filter-service: if the tables of the stream conform, it does not terminate
abnormally, whether writes fail or not. -/
theorem C89_filter_service (c : Codec) (hc : Faithful c) (tabs : Nat → List Table) (sid : Nat)
    (reads ps : List (List UInt8)) (fuel : Nat) (hr : Reading reads ps fuel) (writes : List Int)
    (ht : ∀ n, ∀ t ∈ tabs n, Spec.ServiceFilter.Conforming sid t) :
    ∃ x, exec (filterService c tabs sid) fuel reads
      (0, ServiceFilter.init { sid := sid }, 0, StdoutSink.init writes) = .ok x := by
  have h188 := packets_188 hr.packets
  obtain ⟨⟨f, items⟩, h⟩ := (C25_no_abort_partial { sid := sid } (seen (input c tabs) 0 ps) (by
    intro i hi t hit
    obtain ⟨n, b, _, rfl⟩ := mem_seen hi
    exact ht n t hit)).1
  obtain ⟨cs, ⟨k, d⟩, hcs, _⟩ := (stdout_robust.via (outBytes c)).consumes (sent items)
    (0, StdoutSink.init writes) (by simp [StdoutSink.init]) (sf_188 hc h188 h)
  exact behind_total hr (snk := via (fun _ => outBytes c) StdoutSink.sink) h (by rfl) hcs (by rfl)

example : (∀ n, ∀ t ∈ C68ex.tabs n, Spec.ServiceFilter.Conforming 1 t) ∧
    Reading C68ex.reads C68ex.ps 2000 := ⟨C89ex.conforming, C68ex.reading⟩

/-- **C89**, seek-start: if the tables begin where they can and every usable PAT lists the
service, the maximum duration is less than 10825 years, and the PCRs are valid, it does not terminate abnormally, whether writes fail or
not. -/
theorem C89_seek_start (c : Codec) (hc : Faithful c) (tabs : Nat → List Table) (o : StartSeeker.Opt)
    (hd : Spec.StartSeeker.DurationFits o) (reads ps : List (List UInt8)) (fuel : Nat) (hr : Reading reads ps fuel)
    (writes : List Int)
    (hx : ∀ b ∈ ps, ∀ x, (c.packet b).pcr = some x → 0 ≤ x ∧ x < 2 ^ 33 * 300)
    (ht : ∀ n, ∀ t ∈ tabs n, t.firstPacket ≤ n ∧
      ∀ pat, usablePat t = some pat → ∃ pid, (o.sid, pid) ∈ pat.pmts.entries) :
    ∃ x, exec (seekStart c tabs o) fuel reads
      (0, StartSeeker.init, 0, StdoutSink.init writes) = .ok x := by
  have h188 := packets_188 hr.packets
  have hin : ∀ (qs : List (List UInt8)) (m n : Nat) i, (∀ q ∈ qs, q ∈ ps) →
      (seen (input c tabs) m qs)[n]? = some i →
      ∃ b ∈ ps, i = input c tabs (m + n) b := by
    intro qs
    induction qs with
    | nil => intro m n i _ h; simp [seen] at h
    | cons q qs ih =>
      intro m n i hq h
      cases n with
      | zero =>
        simp only [seen, List.getElem?_cons_zero, Option.some.injEq] at h
        exact ⟨q, hq q (by simp), h.symm⟩
      | succ n =>
        simp only [seen, List.getElem?_cons_succ] at h
        obtain ⟨b, hb, e⟩ := ih (m + 1) n i (fun x hx => hq x (by simp [hx])) h
        exact ⟨b, hb, by rw [e]; congr 1; omega⟩
  obtain ⟨⟨f, items⟩, h⟩ := C74_no_abort_partial o (seen (input c tabs) 0 ps) hd (by
    intro n i hi
    obtain ⟨b, hb, rfl⟩ := hin ps 0 n i (fun _ h => h) hi
    rw [Nat.zero_add]
    exact ⟨ht n, hx b hb⟩)
  obtain ⟨cs, s', d', hcs, hd', hp'⟩ := seek_robust (d := (0, StdoutSink.init writes))
    (stdout_robust.via c.bytes) h (by simp [StdoutSink.init]) (by intro q hq; cases hq) (by
      intro i hi
      obtain ⟨n, b, hb, rfl⟩ := mem_seen hi
      show (c.bytes (c.packet b)).length = 188
      rw [hc.keep b (h188 b hb)]; exact h188 b hb)
  obtain ⟨ys, _, hy⟩ := consumes_via hcs
  obtain ⟨ok, d2, h1, h2⟩ := seek_sendAll_robust (stdout_robust.via c.bytes) s'.packets d' hd' hp'
  exact ⟨_, feedPackets_of hr.yields hr.len
    (snk := seekStart c tabs o) (s := (0, StartSeeker.init, 0, StdoutSink.init writes)) (by rfl) hy
    (s' := (0 + ys.length, { s' with packets := [] }, d2.1, (StdoutSink.flush d2.2).2))
    (by
      show ((StartSeeker.sink o (via (fun _ => c.bytes) StdoutSink.sink)).finish
          (s', d') >>= fun d => .ok (0 + ys.length, d)) = _
      simp only [StartSeeker.sink, h1, ok_bind]
      rfl)⟩

/-- The stream of C88 meets the hypotheses. -/
theorem C88ex.lists : ∀ n, ∀ t ∈ C88ex.tabs n, t.firstPacket ≤ n ∧
    ∀ pat, usablePat t = some pat → ∃ pid, (1, pid) ∈ pat.pmts.entries := by
  intro n t ht
  match n with
  | 0 =>
    rw [List.mem_singleton.1 ht]
    refine ⟨by decide, fun pat hp => ⟨0x100, ?_⟩⟩
    cases hp
    decide
  | 1 =>
    rw [List.mem_singleton.1 ht]
    exact ⟨by decide, fun pat hp => by cases hp⟩
  | n + 2 => cases ht

end Mirakc.Props
