import Verif.Proof.LogoCollector
/-
Properties C63, C64: collect-logos.
-/
namespace Mirakc.Props
open Mirakc.Spec Mirakc.Spec.Logo

/-- **C63.**  There are a palette and a transparency chunk, well-formed, of 129 colours, such
that: Every logo of more than 33 bytes has these two chunks, with length and CRC, inserted
after 33 bytes, and no byte is lost.  If the logo is a PNG file (with length and CRC of all
chunks right) that begins with a header, the result is the PNG file with the two chunks directly
after the header.  The palette has 64 opaque colours, a transparent one at index 8, and the
same 64 colours half transparent. -/
theorem C63_png : ∃ plte trns : Chunk, Palette plte trns ∧
    (∀ i, i < 65 → (colour plte trns i).getLast? = some (some (if i = 8 then 0 else 255))) ∧
    colour plte trns 8 = [some 0, some 0, some 0, some 0] ∧
    (∀ i, i < 64 → (colour plte trns (65 + i)).take 3 = (colour plte trns (if i < 8 then i else i + 1)).take 3 ∧
      (colour plte trns (65 + i)).getLast? = some (some 128)) ∧
    plte.data.length = 3 * 129 ∧
    (∀ data : List UInt8, 33 < data.length →
      LogoCollector.insertPngChunks data = .ok (painted plte trns data)) ∧
    ∀ (ihdr : Chunk) (cs : List Chunk), ihdr.type = "IHDR" → ihdr.data.length = 13 → cs ≠ [] →
      LogoCollector.insertPngChunks (file (ihdr :: cs)) = .ok (file (ihdr :: plte :: trns :: cs)) := by
  have hpal : ∀ i ∈ List.range 65, (colour LogoCollector.plte LogoCollector.trns i).getLast? =
      some (some (if i = 8 then 0 else 255)) := by decide +kernel
  have hpal2 : ∀ i ∈ List.range 64, (colour LogoCollector.plte LogoCollector.trns (65 + i)).take 3 =
      (colour LogoCollector.plte LogoCollector.trns (if i < 8 then i else i + 1)).take 3 ∧
      (colour LogoCollector.plte LogoCollector.trns (65 + i)).getLast? = some (some 128) := by decide +kernel
  refine ⟨LogoCollector.plte, LogoCollector.trns, ⟨by decide +kernel, by decide +kernel⟩,
    fun i hi => hpal i (List.mem_range.2 hi), by decide +kernel, fun i hi => hpal2 i (List.mem_range.2 hi),
    by decide +kernel, fun data h => ?_, fun ihdr cs ht hl hne => ?_⟩
  · rw [LogoCollector.insert_eq h, LogoCollector.chunks_eq]
    simp [painted, List.append_assoc]
  · obtain ⟨h1, h2⟩ := LogoCollector.file_split ihdr cs ht hl
    rw [LogoCollector.insert_eq, h1, h2, LogoCollector.chunks_eq]
    · simp [file]
    · cases cs with
      | nil => exact absurd rfl hne
      | cons c cs =>
        simp [file, Chunk.bytes, be32, ht, hl, typeBytes]
        omega

/-- The CRC is the usual CRC-32: its check value. -/
example : crc32 (typeBytes "123456789") = 0xCBF43926 := by decide +kernel

namespace C63ex

/-- The header of an image of 64 x 36 pixels with 8 bit indices. -/
def ihdr : Chunk := ⟨"IHDR", [0, 0, 0, 64, 0, 0, 0, 36, 8, 3, 0, 0, 0]⟩
/-- The rest of the image; the compressed data are made up. -/
def rest : List Chunk := [⟨"IDAT", List.replicate 50 0x78⟩, ⟨"IEND", []⟩]
/-- A logo. -/
def logo (data : List UInt8) : LogoCollector.Logo :=
  { type := 5, id := 40, version := 3, data := data, nid := 4, services := [⟨4, 16625, 101⟩] }
/-- A transparent logo. -/
def small : LogoCollector.Logo := { logo (List.replicate 93 0) with services := [] }
/-- Two packets, the second completes two logos. -/
def input : List LogoCollector.LogoInput :=
  [⟨[], true⟩, ⟨[small, { logo (file (ihdr :: rest)) with services := [] }], true⟩, ⟨[], false⟩, ⟨[small], true⟩]
/-- Some encoding. -/
def base64 (l : List UInt8) : String := toString l.length

end C63ex

/-- Non-trivial case for C63. -/
example : (file (C63ex.ihdr :: C63ex.rest)).length = 107 ∧ ∃ plte trns, Palette plte trns ∧
    LogoCollector.insertPngChunks (file (C63ex.ihdr :: C63ex.rest)) =
      .ok (file (C63ex.ihdr :: plte :: trns :: C63ex.rest)) := by
  obtain ⟨plte, trns, h1, _, _, _, _, _, h2⟩ := C63_png
  exact ⟨by decide +kernel, plte, trns, h1, h2 _ _ rfl rfl (by decide)⟩

/-- **C64.**  collect-logos never aborts, and ends with 0.  With the chunks of C63: for each
logo of more than 93 bytes there is one document, in the order of the download, with type,
id, version, network id and services of the logo, and with the image with the two chunks;
smaller logos are skipped.  It ends with the first packet for which LibISDB says so, otherwise
with the input. -/
theorem C64_logos : ∃ plte trns : Chunk, Palette plte trns ∧
    (∀ data : List UInt8, 33 < data.length →
      LogoCollector.insertPngChunks data = .ok (painted plte trns data)) ∧
    ∀ (base64 : List UInt8 → String) (is : List LogoCollector.LogoInput),
      (∀ (τ : Type) (src : Source LogoCollector.LogoInput τ) (t : τ) (fuel : Nat), Yields src t is →
        is.length < fuel → ∃ r, feedPackets src (LogoCollector.sink base64) fuel t { st := () } = .ok r) ∧
      ∀ (code : Nat) (h : LogoCollector.Hist), Collected base64 is code h → code = 0 ∧
        (∀ x ∈ h.items, x.did =
          (x.input.logos.filter (fun l => decide (93 < l.data.length))).map (doc base64 plte trns)) ∧
        ((h.items.map (·.input) = is ∧ ∀ i ∈ is, i.result = true) ∨
         ∃ before i after, is = before ++ i :: after ∧ h.items.map (·.input) = before ++ [i] ∧
           (∀ j ∈ before, j.result = true) ∧ i.result = false) := by
  refine ⟨LogoCollector.plte, LogoCollector.trns, ⟨by decide +kernel, by decide +kernel⟩, fun data h => ?_,
    fun base64 is => ⟨fun τ src t fuel hy hl => ?_, fun code h hr => ?_⟩⟩
  · rw [LogoCollector.insert_eq h, LogoCollector.chunks_eq]
    simp [painted, List.append_assoc]
  · refine ran_total (fun _ => True) (fun s _ i _ => ?_) (fun s _ => ⟨s, rfl⟩) trivial src t fuel hy hl
    unfold LogoCollector.step
    rw [LogoCollector.onLogos_eq]
    exact ⟨_, _, _, rfl, trivial⟩
  · obtain ⟨s, h1, _, h3, h4, h5⟩ := Ran.reach hr
    have item : ∀ a x b, h.items = a ++ x :: b → x.more = x.input.result ∧ x.did =
        (x.input.logos.filter (fun l => decide (93 < l.data.length))).map
          (doc base64 LogoCollector.plte LogoCollector.trns) := by
      intro a x b e
      obtain ⟨s1, s2, _, _, k2, _⟩ := h1.split a x b e
      unfold LogoCollector.step at k2
      rw [LogoCollector.onLogos_eq] at k2
      simp only [ok_bind, Except.ok.injEq, Prod.mk.injEq, true_and] at k2
      exact ⟨k2.2.symm, k2.1.symm⟩
    have item' : ∀ x ∈ h.items, x.more = x.input.result ∧ x.did =
        (x.input.logos.filter (fun l => decide (93 < l.data.length))).map
          (doc base64 LogoCollector.plte LogoCollector.trns) := by
      intro x hx
      obtain ⟨a, b, e⟩ := List.append_of_mem hx
      exact item a x b e
    refine ⟨h3, fun x hx => (item' x hx).2, ?_⟩
    rcases h5 with ⟨h5, h6⟩ | ⟨x, h5, h6⟩
    · left
      refine ⟨h5, fun i hi => ?_⟩
      rw [← h5] at hi
      obtain ⟨x, hx, rfl⟩ := List.mem_map.1 hi
      rw [← (item' x hx).1]; exact h6 x hx
    · right
      obtain ⟨rest, hrest⟩ := h4
      obtain ⟨a, e⟩ : ∃ a, h.items = a ++ [x] := by
        rcases List.eq_nil_or_concat h.items with hn | ⟨a, y, e⟩
        · rw [hn] at h5; simp at h5
        · rw [List.concat_eq_append] at e
          rw [e] at h5
          simp only [List.getLast?_append, List.getLast?_singleton, Option.some_or, Option.some.injEq] at h5
          exact ⟨a, by rw [e, h5]⟩
      obtain ⟨_, _, _, hall, _⟩ := h1.split a x [] e
      refine ⟨a.map (·.input), x.input, rest, by rw [← hrest, e]; simp, by rw [e]; simp, ?_, ?_⟩
      · intro j hj
        obtain ⟨y, hy, rfl⟩ := List.mem_map.1 hj
        rw [← (item' y (by rw [e]; simp [hy])).1]; exact hall y hy
      · rw [← (item' x (by rw [e]; simp)).1]; exact h6

/-- Non-trivial case for C64: a transparent logo is skipped; the fourth packet is not read. -/
example : ∃ h, Collected C63ex.base64 C63ex.input 0 h ∧
    h.items.map (·.did) = [[], [⟨5, 40, 3, "data:image/png;base64,647", 4, none⟩], []] := by
  obtain ⟨c, h, hr, hp⟩ := ran_of_check (snk := LogoCollector.sink C63ex.base64) (s0 := { st := () })
    (is := C63ex.input) (P := fun c h => decide (c = 0 ∧
      h.items.map (·.did) = [[], [⟨5, 40, 3, "data:image/png;base64,647", 4, none⟩], []]))
    (by decide +kernel)
  obtain ⟨h1, h2⟩ := of_decide_eq_true hp
  exact ⟨h, h1 ▸ hr, h2⟩

end Mirakc.Props
