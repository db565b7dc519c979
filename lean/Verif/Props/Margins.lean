import Verif.Proof.MarginsSteps
import Verif.Props.MainFilters
/-
Properties C142 and C143: what larger margins change.
-/
namespace Mirakc.Props
open Mirakc.Main Mirakc.Spec Mirakc.Spec.Main Mirakc.Spec.Pipeline Mirakc.Spec.Margins
open Mirakc.Spec.ServiceFilter (sent received Missing)

private theorem seen_prefix {α β : Type} {f : Nat → α → β} {xs ys : List α} (h : xs <+: ys) (n : Nat) :
    seen f n xs <+: seen f n ys := by
  obtain ⟨zs, rfl⟩ := h
  rw [Mirakc.Pipeline.seen_append]
  exact List.prefix_append _ _

private theorem sent_of {xs ys : List ServiceFilter.Item} (h : xs <+: ys) : sent xs <+: sent ys := by
  obtain ⟨zs, rfl⟩ := h
  exact ⟨sent zs, by simp [sent]⟩

/-- Two runs of the command with options that differ in the margins. -/
private theorem two (w : World) (hc : Faithful w.codec) (ps : List (List UInt8)) (hr : Reads w ps)
    (hw : ∀ x ∈ w.write, 0 ≤ x) {A B : ProgramFilter.Opt} (hsid : B.sid = A.sid) {e e' : Ended}
    (h : Main.filterProgram w A = .ok e) (h' : Main.filterProgram w B = .ok e') :
    ∃ is js f g items items', ProgramFilter.run w.extra A (ProgramFilter.init A) is = .ok (f, items) ∧
      ProgramFilter.run w.extra B (ProgramFilter.init B) js = .ok (g, items') ∧
      (∀ i ∈ is, Mirakc.Margins.Fit (PcrOf w ps) (TableOf w) i) ∧
      (∀ i ∈ is, ∃ b, b.length = 188 ∧ i.packet = w.codec.packet b) ∧
      (is <+: js ∨ (js <+: is ∧ ∃ pre it, items' = pre ++ [it] ∧ it.more = false)) ∧
      e.bytes = ((Spec.ProgramFilter.sent items).map (eventBytes w.codec)).flatten ∧
      e'.bytes = ((Spec.ProgramFilter.sent items').map (eventBytes w.codec)).flatten ∧
      (∀ x ∈ Spec.ProgramFilter.sent items, (eventBytes w.codec x).length = 188) ∧
      (∀ x ∈ Spec.ProgramFilter.sent items', (eventBytes w.codec x).length = 188) := by
  obtain ⟨⟨code, n, f, m, g, k, d⟩, h0, h1⟩ := bind_ok_iff.1 h
  cases h1
  obtain ⟨⟨code', n', f', m', g', k', d'⟩, h0', h1'⟩ := bind_ok_iff.1 h'
  cases h1'
  rw [feed_exec] at h0 h0'
  obtain ⟨cs, its, items, a1, a2, a3, a4, a5, a6, a7, a8, a9⟩ := Pipeline.filter_program hc (reading hr) hw h0
  obtain ⟨cs', its', items', b1, b2, b3, b4, b5, b6, b7, b8, b9⟩ := Pipeline.filter_program hc (reading hr) hw h0'
  rw [hsid] at b2 b8
  have hpcr := Mirakc.Pipeline.sf_noPcr hc (tabs' := w.tables2) a2 0
  have hall : ∀ p ∈ ps, p.length = 188 := Mirakc.Pipeline.packets_188 hr.2
  have hfrom : ∀ x ∈ sent its, (∃ b ∈ ps, serviceFields w.codec x = w.codec.packet b) ∨
      ∃ p k, serviceFields w.codec x = w.codec.packet (w.codec.patBytes p k) := by
    intro x hx
    rcases Mirakc.Pipeline.sf_sent a2 x hx with ⟨i, hi, _, rfl⟩ | ⟨p, k, rfl, _⟩
    · obtain ⟨_, b, hb, rfl⟩ := Mirakc.Pipeline.mem_seen hi
      exact Or.inl ⟨b, a1.subset hb, rfl⟩
    · exact Or.inr ⟨p, k, rfl⟩
  refine ⟨_, _, g, g', items, items', a4, b4, fun i hi => ?_, fun i hi => ?_, ?_, a6, b6, a7, b7⟩
  · have h0 := hpcr i hi
    obtain ⟨m, x, hx, rfl⟩ := Mirakc.Pipeline.mem_seen hi
    refine ⟨fun q hq => ?_, fun t ht => ⟨m, x, ht⟩, h0⟩
    rcases hfrom x hx with ⟨b, hb, e⟩ | ⟨p, k, e⟩
    · exact ⟨b, hb, by rw [← e]; exact hq⟩
    · have hq : (serviceFields w.codec x).pcr = some q := hq
      rw [e, hc.patPcr] at hq
      cases hq
  · obtain ⟨m, x, hx, rfl⟩ := Mirakc.Pipeline.mem_seen hi
    rcases hfrom x hx with ⟨b, hb, e⟩ | ⟨p, k, e⟩
    · exact ⟨b, hall b hb, e⟩
    · exact ⟨_, hc.pat p k, e⟩
  · -- how far the service filter got
    have pre : ∀ {xs ys : List (List UInt8)} {u v : ServiceFilter.St} {p q : List ServiceFilter.Item}, xs <+: ys →
        ServiceFilter.run { sid := A.sid } (ServiceFilter.init { sid := A.sid }) (seen (Mirakc.Pipeline.input w.codec w.tables) 0 xs) =
          .ok (u, p) → p.length = xs.length →
        ServiceFilter.run { sid := A.sid } (ServiceFilter.init { sid := A.sid }) (seen (Mirakc.Pipeline.input w.codec w.tables) 0 ys) =
          .ok (v, q) → p <+: q := by
      intro xs ys u v p q hxy h1 hl h2
      obtain ⟨zs, rfl⟩ := hxy
      rw [Mirakc.Pipeline.seen_append] at h2
      refine Mirakc.Agree.sf_prefix _ _ _ _ _ _ _ h1 ?_ h2
      rw [hl]
      exact (Mirakc.Pipeline.seen_length _ _ _).symm
    rcases b8 with b8 | b8
    · exact Or.inl (seen_prefix (sent_of (pre a1 a2 a3 b8)) 0)
    · rcases List.prefix_or_prefix_of_prefix a1 b1 with hp | hp
      · exact Or.inl (seen_prefix (sent_of (pre hp a2 a3 b2)) 0)
      · exact Or.inr ⟨seen_prefix (sent_of (pre hp b2 b3 a2)) 0, b8⟩

private theorem load_margins {a : Options.ProgramArgs} {m n : Option Int} {A B : ProgramFilter.Opt}
    (hA : Options.loadProgramFilter a = .ok A)
    (hB : Options.loadProgramFilter { a with startMargin := m, endMargin := n } = .ok B) :
    Mirakc.Margins.Twins A B ∧ A.startMargin = a.startMargin.getD 0 ∧ A.endMargin = a.endMargin.getD 0 ∧
      B.startMargin = m.getD 0 ∧ B.endMargin = n.getD 0 := by
  obtain ⟨c, h1, hA⟩ := bind_ok_iff.1 hA
  obtain ⟨x, h2, hA⟩ := bind_ok_iff.1 hA
  obtain ⟨y, h3, hA⟩ := bind_ok_iff.1 hA
  obtain ⟨z, h4, hA⟩ := bind_ok_iff.1 hA
  obtain ⟨c', h1', hB⟩ := bind_ok_iff.1 hB
  obtain ⟨x', h2', hB⟩ := bind_ok_iff.1 hB
  obtain ⟨y', h3', hB⟩ := bind_ok_iff.1 hB
  obtain ⟨z', h4', hB⟩ := bind_ok_iff.1 hB
  rw [h1] at h1'; cases h1'
  rw [h2] at h2'; cases h2'
  rw [h3] at h3'; cases h3'
  rw [h4] at h4'; cases h4'
  cases hA
  cases hB
  exact ⟨⟨rfl, rfl, rfl, rfl, rfl, rfl, rfl, rfl, rfl⟩, rfl, rfl, rfl, rfl⟩

/-- **C142**.  With a larger end margin filter-program writes the same and possibly more after it, provided that the PCR does
not start over between the two ends. -/
theorem C142_end_margin_partial (w : World) (hc : Faithful w.codec) (ps : List (List UInt8)) (hr : Reads w ps)
    (hw : ∀ x ∈ w.write, 0 ≤ x) (a : Options.ProgramArgs) (hs : 0 ≤ a.sid ∧ a.sid < 65536)
    (he : 0 ≤ a.eid ∧ a.eid < 65536) (hp : 0 ≤ a.clockPid ∧ a.clockPid < 65536)
    (n : Int) (hn : a.endMargin.getD 0 ≤ n)
    (hwrap : ∀ o, Means a o → NoWrap o (PcrOf w ps) (TableOf w) (endWith (a.endMargin.getD 0)) (endWith n)) (e e' : Ended)
    (h : main w (.filterProgram a) = .ok e) (h' : main w (.filterProgram { a with endMargin := some n }) = .ok e') :
    e.bytes <+: e'.bytes := by
  obtain ⟨A, hA, h⟩ := bind_ok_iff.1 h
  obtain ⟨B, hB, h'⟩ := bind_ok_iff.1 h'
  rw [mapError_ok_iff] at hA hB
  obtain ⟨t, m1, m2, m3, m4⟩ := load_margins hA hB
  obtain ⟨is, js, f, g, items, items', k1, k2, k3, k4, k5, k6, k7, _⟩ := two w hc ps hr hw t.sid h h'
  have hwide : Mirakc.Margins.Wider A B (PcrOf w ps) (TableOf w) := by
    refine ⟨t, by rw [m1, m3]; exact Int.le_refl _, by rw [m2, m4]; exact hn, fun hlt => ?_, fun _ => ?_⟩
    · rw [m1, m3] at hlt
      exact absurd hlt (Int.lt_irrefl _)
    · rw [m2, m4]
      exact hwrap A (load_means hs he hp hA)
  obtain ⟨zs, hz⟩ := Mirakc.Margins.run_prefix hwide (m1.trans m3.symm) k1 k2 k3 k5
  rw [k6, k7, ← hz, List.map_append, List.flatten_append]
  exact List.prefix_append _ _

private theorem like_bytes {c : Mirakc.Pipeline.Codec} : ∀ {xs ys : List ProgramFilter.Out}, AllLike xs ys →
    (xs.map (eventBytes c)).length = (ys.map (eventBytes c)).length ∧
    ∀ p ∈ (xs.map (eventBytes c)).zip (ys.map (eventBytes c)), SameOrPmt c p.1 p.2
  | [], [], _ => ⟨rfl, fun p hp => by cases hp⟩
  | x :: xs, y :: ys, h => by
    obtain ⟨h1, h2⟩ := like_bytes (c := c) h.2
    refine ⟨by simpa using h1, fun p hp => ?_⟩
    simp only [List.map_cons, List.zip_cons_cons, List.mem_cons] at hp
    rcases hp with rfl | hp
    · rcases h.1 with rfl | ⟨pid, t, i, n, t', i', n', rfl, rfl⟩
      · exact Or.inl rfl
      · exact Or.inr ⟨pid, t, i, n, t', i', n', rfl, rfl⟩
    · exact h2 p hp
  | [], _ :: _, h => h.elim
  | _ :: _, [], h => h.elim

/-- **C143**.  With larger margins filter-program writes the programme as it does with the smaller ones, possibly with more
before and after it: what it writes with the smaller margins is a PAT and a PMT, one packet, and then what it writes with
the larger margins from some point on; only the packets of PMTs may be different ones.  Provided that the PCR does not start
over between the two starts or between the two ends. -/
theorem C143_margins_partial (w : World) (hc : Faithful w.codec) (ps : List (List UInt8)) (hr : Reads w ps)
    (hw : ∀ x ∈ w.write, 0 ≤ x) (a : Options.ProgramArgs) (hs : 0 ≤ a.sid ∧ a.sid < 65536)
    (he : 0 ≤ a.eid ∧ a.eid < 65536) (hp : 0 ≤ a.clockPid ∧ a.clockPid < 65536)
    (m n : Int) (hm : a.startMargin.getD 0 ≤ m) (hn : a.endMargin.getD 0 ≤ n)
    (hstart : ∀ o, Means a o → NoWrap o (PcrOf w ps) (TableOf w) (startWith m) (startWith (a.startMargin.getD 0)))
    (hend : ∀ o, Means a o → NoWrap o (PcrOf w ps) (TableOf w) (endWith (a.endMargin.getD 0)) (endWith n)) (e e' : Ended)
    (h : main w (.filterProgram a) = .ok e)
    (h' : main w (.filterProgram { a with startMargin := some m, endMargin := some n }) = .ok e') :
    ∃ l c r u r' v : List (List UInt8), e.bytes = (l ++ c ++ r).flatten ∧ e'.bytes = (u ++ r' ++ v).flatten ∧
      (∀ b ∈ l ++ c ++ r, b.length = 188) ∧ (∀ b ∈ u ++ r' ++ v, b.length = 188) ∧
      (∀ b ∈ l, Opening w.codec b) ∧ c.length ≤ 1 ∧ r.length = r'.length ∧ ∀ p ∈ r.zip r', SameOrPmt w.codec p.1 p.2 := by
  obtain ⟨A, hA, h⟩ := bind_ok_iff.1 h
  obtain ⟨B, hB, h'⟩ := bind_ok_iff.1 h'
  rw [mapError_ok_iff] at hA hB
  obtain ⟨t, m1, m2, m3, m4⟩ := load_margins hA hB
  obtain ⟨is, js, f, g, items, items', k1, k2, k3, k4, k5, k6, k7, k8, k9⟩ := two w hc ps hr hw t.sid h h'
  have hwide : Mirakc.Margins.Wider A B (PcrOf w ps) (TableOf w) := by
    refine ⟨t, by rw [m1, m3]; exact hm, by rw [m2, m4]; exact hn, fun _ => ?_, fun _ => ?_⟩
    · rw [m1, m3]
      exact hstart A (load_means hs he hp hA)
    · rw [m2, m4]
      exact hend A (load_means hs he hp hA)
  have horig := Mirakc.Agree.run_origs _ _ _ _ k1 (fun i hi => (k3 i hi).pat) (by intro _; rfl)
  obtain ⟨l, c, r, u, q, v, e1, e2, e3, e4, e5⟩ := Mirakc.Margins.run_within hwide k1 k2 k3 k5
  obtain ⟨z1, z2⟩ := like_bytes (c := w.codec) e5
  refine ⟨l.map (eventBytes w.codec), c.map (eventBytes w.codec), r.map (eventBytes w.codec), u.map (eventBytes w.codec),
    q.map (eventBytes w.codec), v.map (eventBytes w.codec), by rw [k6, e1, List.map_append, List.map_append],
    by rw [k7, e2, List.map_append, List.map_append], ?_, ?_, ?_, by simpa using e4, z1, z2⟩
  · intro b hb
    rw [← List.map_append, ← List.map_append, ← e1] at hb
    obtain ⟨x, hx, rfl⟩ := List.mem_map.1 hb
    exact k8 x hx
  · intro b hb
    rw [← List.map_append, ← List.map_append, ← e2] at hb
    obtain ⟨x, hx, rfl⟩ := List.mem_map.1 hb
    exact k9 x hx
  · intro b hb
    obtain ⟨x, hx, rfl⟩ := List.mem_map.1 hb
    cases x with
    | pmt pid t i n => exact Or.inr ⟨pid, t, i, n, rfl⟩
    | orig p =>
      have h0 : p.pid = 0 := e3 _ hx
      have hmem : p ∈ Mirakc.Agree.origs (Spec.ProgramFilter.sent items) := by
        unfold Mirakc.Agree.origs
        exact List.mem_filterMap.2 ⟨.orig p, by rw [e1]; simp [hx], rfl⟩
      have := horig.subset hmem
      have : p ∈ is.map (·.packet) := by
        rcases List.mem_append.1 this with hh | hh
        · cases hh
        · exact hh
      obtain ⟨i, hi, rfl⟩ := List.mem_map.1 this
      obtain ⟨b, hb1, hb2⟩ := k4 i hi
      refine Or.inl ?_
      show (w.codec.packet (w.codec.bytes i.packet)).pid = 0
      rw [hb2, hc.keep b hb1, ← hb2]
      exact h0

namespace C142ex

/-- A stream with a PCR and a packet of video five seconds before the programme. -/
def ps : List (List UInt8) :=
  C68ex.ps.take 3 ++ [C68ex.clk 0x1ff 500000, C68ex.raw 0x111 2 9] ++ C68ex.ps.drop 3
def world : World := { C95ex.world with read := ps.map some }
theorem reads : Reads world ps := by
  refine ⟨fun r hr => ?_, ?_⟩
  · have : ∀ r ∈ world.read, (r.getD []).length ≤ 16384 := by decide +kernel
    exact this _ hr
  · have : contents world = ps.flatten := by decide +kernel
    rw [this]
    exact Mirakc.Pipeline.packets_flatten (by decide +kernel)
theorem pcrs : ∀ q, PcrOf world ps q → 0 ≤ q ∧ q < 600000000 := by
  rintro q ⟨b, hb, hq⟩
  have : ∀ b ∈ ps, ∀ q ∈ (C68ex.codec.packet b).pcr, 0 ≤ q ∧ q < 600000000 := by decide +kernel
  exact this b hb q hq
theorem tables : ∀ t, TableOf world t → (∃ p, t = { sourcePid := 0, body := .pat p }) ∨ t = C68ex.pmt ∨ t = C26ex.eit := by
  rintro t ⟨n, x, ht⟩
  change t ∈ C68ex.tabs' n x at ht
  cases x with
  | pat p k =>
    simp only [C68ex.tabs', List.mem_singleton] at ht
    exact Or.inl ⟨p, ht⟩
  | orig p =>
    simp only [C68ex.tabs'] at ht
    split at ht
    · simp only [List.mem_singleton] at ht
      exact Or.inr (Or.inl ht)
    · split at ht
      · simp only [List.mem_singleton] at ht
        exact Or.inr (Or.inr ht)
      · cases ht
theorem clocks {o : ProgramFilter.Opt} (ho : Means C95ex.args o) {t0 p0 : Int}
    (h : Clocks o (PcrOf world ps) (TableOf world) t0 p0) : t0 = 0 ∧ p0 = 1000 := by
  rcases h with ⟨rfl, rfl, _⟩ | ⟨⟨t, ht, h⟩, _⟩
  · exact ⟨by rw [ho.clockTime]; rfl, ho.clockPcr⟩
  · rcases tables t ht with ⟨p, rfl⟩ | rfl | rfl <;> cases h
theorem described {o : ProgramFilter.Opt} {e : Event} (h : Described o (TableOf world) e) : e.startTime = 10000 ∧ e.duration = 10 := by
  obtain ⟨t, es, ht, h1, h2⟩ := h
  rcases tables t ht with ⟨p, rfl⟩ | rfl | rfl
  · cases h1
  · cases h1
  · simp only [Spec.ProgramFilter.serviceEit, C26ex.eit] at h1
    split at h1
    · cases h1
      have hm : e ∈ [({ eventId := 5, startTime := 10000, duration := 10 } : Event)] := List.mem_of_find?_eq_some h2
      rw [List.mem_singleton] at hm
      subst hm
      exact ⟨rfl, rfl⟩
    · cases h1
theorem noWrap {early late : Event → Int} (h : ∀ e, e.startTime = 10000 → e.duration = 10 → 0 ≤ early e ∧ late e ≤ 100000) :
    ∀ o, Means C95ex.args o → NoWrap o (PcrOf world ps) (TableOf world) early late := by
  intro o ho t0 p0 e q h1 h2 h3
  obtain ⟨rfl, rfl⟩ := clocks ho h1
  obtain ⟨d1, d2⟩ := described h2
  obtain ⟨k1, k2⟩ := h e d1 d2
  obtain ⟨q1, q2⟩ := pcrs q h3
  omega

end C142ex

/-- An end margin of a second: two packets more. -/
example : Faithful C142ex.world.codec ∧ Reads C142ex.world C142ex.ps ∧ (∀ x ∈ C142ex.world.write, 0 ≤ x) ∧
    (∀ o, Means C95ex.args o → NoWrap o (PcrOf C142ex.world C142ex.ps) (TableOf C142ex.world) (endWith 0) (endWith 1000)) ∧
    (∃ e, main C142ex.world (.filterProgram C95ex.args) = .ok e ∧ decide (e.bytes.length = 188 * 5) = true) ∧
    ∃ e, main C142ex.world (.filterProgram { C95ex.args with endMargin := some 1000 }) = .ok e ∧
      decide (e.bytes.length = 188 * 7) = true :=
  ⟨C68ex.faithful, C142ex.reads, C95ex.writes, C142ex.noWrap (fun e h1 h2 => by unfold endWith; omega),
    C95ex.check (by decide +kernel), C95ex.check (by decide +kernel)⟩

/-- A start margin of five seconds as well: two packets more before the programme. -/
example : Faithful C142ex.world.codec ∧ Reads C142ex.world C142ex.ps ∧ (∀ x ∈ C142ex.world.write, 0 ≤ x) ∧
    (∀ o, Means C95ex.args o → NoWrap o (PcrOf C142ex.world C142ex.ps) (TableOf C142ex.world) (startWith 5000) (startWith 0)) ∧
    (∀ o, Means C95ex.args o → NoWrap o (PcrOf C142ex.world C142ex.ps) (TableOf C142ex.world) (endWith 0) (endWith 1000)) ∧
    (∃ e, main C142ex.world (.filterProgram C95ex.args) = .ok e ∧ decide (e.bytes.length = 188 * 5) = true) ∧
    ∃ e, main C142ex.world (.filterProgram { C95ex.args with startMargin := some 5000, endMargin := some 1000 }) = .ok e ∧
      decide (e.bytes.length = 188 * 9) = true :=
  ⟨C68ex.faithful, C142ex.reads, C95ex.writes, C142ex.noWrap (fun e h1 h2 => by unfold startWith; omega),
    C142ex.noWrap (fun e h1 h2 => by unfold endWith; omega), C95ex.check (by decide +kernel), C95ex.check (by decide +kernel)⟩

namespace C142ex

/-- A stream in which the PCR starts over shortly after the programme. -/
def over : List (List UInt8) :=
  C68ex.ps.take 3 ++ [C68ex.clk 0x1ff 8589900000, C68ex.raw 0x111 0 5, C68ex.clk 0x1ff 100000, C68ex.raw 0x111 1 6,
    C68ex.clk 0x1ff 200000, C68ex.raw 0x111 2 7]
def wrapping : World := { C95ex.world with read := over.map some }
/-- The programme ends 10 ms before the PCR starts over. -/
def late : Options.ProgramArgs := { C95ex.args with clockPcr := 2 ^ 33 * 300 - 20010 * 27000 }
theorem reads_over : Reads wrapping over := by
  refine ⟨fun r hr => ?_, ?_⟩
  · have : ∀ r ∈ wrapping.read, (r.getD []).length ≤ 16384 := by decide +kernel
    exact this _ hr
  · have : contents wrapping = over.flatten := by decide +kernel
    rw [this]
    exact Mirakc.Pipeline.packets_flatten (by decide +kernel)

end C142ex

/-- **C142**, what is not true: if the PCR starts over between the two ends, the larger margin may give less.  The smaller
one does not notice the end. -/
theorem C142_claim_false : ∃ (w : World) (ps : List (List UInt8)) (a : Options.ProgramArgs) (n : Int) (e e' : Ended),
    Faithful w.codec ∧ Reads w ps ∧ (∀ x ∈ w.write, 0 ≤ x) ∧ a.endMargin.getD 0 ≤ n ∧
    main w (.filterProgram a) = .ok e ∧ main w (.filterProgram { a with endMargin := some n }) = .ok e' ∧
    e'.bytes.length < e.bytes.length := by
  obtain ⟨e, h1, h2⟩ := C95ex.check (r := main C142ex.wrapping (.filterProgram C142ex.late))
    (P := fun e => decide (e.bytes.length = 188 * 8)) (by decide +kernel)
  obtain ⟨e', h3, h4⟩ := C95ex.check (r := main C142ex.wrapping (.filterProgram { C142ex.late with endMargin := some 2000 }))
    (P := fun e => decide (e.bytes.length = 188 * 6)) (by decide +kernel)
  refine ⟨C142ex.wrapping, C142ex.over, C142ex.late, 2000, e, e', C68ex.faithful, C142ex.reads_over, C95ex.writes, by decide, h1, h3, ?_⟩
  rw [of_decide_eq_true h2, of_decide_eq_true h4]
  decide

namespace C142ex

/-- More packets after it. -/
def over2 : List (List UInt8) := over ++ [C68ex.raw 0x111 3 8, C68ex.raw 0x111 4 9, C68ex.raw 0x111 5 10]
def wrapping2 : World := { C95ex.world with read := over2.map some }
theorem reads_over2 : Reads wrapping2 over2 := by
  refine ⟨fun r hr => ?_, ?_⟩
  · have : ∀ r ∈ wrapping2.read, (r.getD []).length ≤ 16384 := by decide +kernel
    exact this _ hr
  · have : contents wrapping2 = over2.flatten := by decide +kernel
    rw [this]
    exact Mirakc.Pipeline.packets_flatten (by decide +kernel)
/-- The packet with the PCR is no packet of a PMT. -/
theorem no_opening {b : List UInt8} (h0 : (C68ex.codec.packet b).pid ≠ 0) (h3 : b[3]? = some 0x20) :
    ¬ Opening C68ex.codec b := by
  rintro (h | ⟨pid, t, i, n, rfl⟩)
  · exact h0 h
  · have h : some (UInt8.ofNat (0x10 + n % 16)) = some 0x20 := h3
    have key : ∀ k < 16, UInt8.ofNat (0x10 + k) ≠ 0x20 := by decide
    exact key _ (Nat.mod_lt _ (by decide)) (Option.some.inj h)

end C142ex

/-- **C143**, what is not true: without the condition on the PCR, larger margins may take packets away from the middle of
the output. -/
theorem C143_claim_false : ∃ (w : World) (ps : List (List UInt8)) (a : Options.ProgramArgs) (m n : Int) (e e' : Ended),
    Faithful w.codec ∧ Reads w ps ∧ (∀ x ∈ w.write, 0 ≤ x) ∧ a.startMargin.getD 0 ≤ m ∧ a.endMargin.getD 0 ≤ n ∧
    main w (.filterProgram a) = .ok e ∧
    main w (.filterProgram { a with startMargin := some m, endMargin := some n }) = .ok e' ∧
    ¬ ∃ l c r u r' v : List (List UInt8), e.bytes = (l ++ c ++ r).flatten ∧ e'.bytes = (u ++ r' ++ v).flatten ∧
      (∀ b ∈ l ++ c ++ r, b.length = 188) ∧ (∀ b ∈ u ++ r' ++ v, b.length = 188) ∧
      (∀ b ∈ l, Opening w.codec b) ∧ c.length ≤ 1 ∧ r.length = r'.length ∧ ∀ p ∈ r.zip r', SameOrPmt w.codec p.1 p.2 := by
  obtain ⟨e, h1, h2⟩ := C95ex.check (r := main C142ex.wrapping2 (.filterProgram C142ex.late))
    (P := fun e => decide (e.bytes.length = 188 * 11 ∧ (e.bytes.drop 376).take 188 = C68ex.clk 0x1ff 8589900000)) (by decide +kernel)
  obtain ⟨e', h3, h4⟩ := C95ex.check
    (r := main C142ex.wrapping2 (.filterProgram { C142ex.late with startMargin := some 0, endMargin := some 2000 }))
    (P := fun e => decide (e.bytes.length = 188 * 6)) (by decide +kernel)
  refine ⟨C142ex.wrapping2, C142ex.over2, C142ex.late, 0, 2000, e, e', C68ex.faithful, C142ex.reads_over2, C95ex.writes,
    by decide, by decide, h1, h3, ?_⟩
  rintro ⟨l, c, r, u, r', v, k1, k2, k3, k4, k5, k6, k7, _⟩
  obtain ⟨h2, h2'⟩ := of_decide_eq_true h2
  have h4 := of_decide_eq_true h4
  rw [k1, Mirakc.Agree.length_188 _ k3] at h2
  rw [k2, Mirakc.Agree.length_188 _ k4] at h4
  simp only [List.length_append] at h2 h4
  have hl : 2 < l.length := by omega
  rw [k1, Mirakc.Agree.drop_flatten _ 2 k3] at h2'
  have hm : l[2] ∈ l := List.getElem_mem _
  have hd : (l ++ c ++ r).drop 2 = l[2] :: (l.drop 3 ++ c ++ r) := by
    rw [List.append_assoc, List.drop_append_of_le_length (by omega), List.drop_eq_getElem_cons hl, List.append_assoc]
    rfl
  have hlen : l[2].length = 188 := k3 _ (by simp [hm])
  rw [hd, List.flatten_cons, List.take_left' hlen] at h2'
  refine C142ex.no_opening ?_ ?_ (k5 _ hm)
  · rw [h2']; decide +kernel
  · rw [h2']; decide +kernel

end Mirakc.Props
