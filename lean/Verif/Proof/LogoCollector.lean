import Verif.Spec.LogoCollector
import Verif.Proof.History
/-
Lemmas about logos.
-/
set_option linter.unusedSimpArgs false
namespace Mirakc.LogoCollector
open Mirakc.Spec.Logo

theorem chunks_length : chunks.length = 540 := by decide +kernel

/-- The palette in `kChunks`. -/
def plte : Chunk := ⟨"PLTE", (chunks.drop 8).take 387⟩
/-- The opacity in `kChunks`. -/
def trns : Chunk := ⟨"tRNS", (chunks.drop 407).take 129⟩

/-- Evaluate a number before it is used. -/
def force {α : Type} (n : Nat) (k : Nat → α) : α :=
  match n with
  | 0 => k 0
  | m + 1 => k (m + 1)

theorem force_eq {α : Type} (n : Nat) (k : Nat → α) : force n k = k n := by cases n <;> rfl

/-- The CRC, in a form that is easily evaluated. -/
def crcFast : List UInt8 → Nat → Nat
  | [], c => c ^^^ 0xFFFFFFFF
  | b :: l, c => force (crcBits 8 (c ^^^ b.toNat)) (crcFast l)

theorem crcFast_eq (l : List UInt8) : crc32 l = crcFast l 0xFFFFFFFF := by
  unfold crc32
  suffices ∀ c, l.foldl (fun c b => crcBits 8 (c ^^^ b.toNat)) c ^^^ 0xFFFFFFFF = crcFast l c from this _
  induction l with
  | nil => intro c; rfl
  | cons b l ih => intro c; rw [List.foldl_cons, crcFast, force_eq, ih]

theorem chunks_eq : chunks = plte.bytes ++ trns.bytes := by
  unfold Chunk.bytes
  rw [crcFast_eq, crcFast_eq]
  decide +kernel

theorem insert_eq {data : List UInt8} (h : 33 < data.length) :
    insertPngChunks data = .ok (data.take 33 ++ chunks ++ data.drop 33) := by
  have h1 : (data.take 33).length = 33 := by rw [List.length_take]; omega
  unfold insertPngChunks memcpy
  generalize chunks = chunks
  simp only [idatOffset, decide_eq_true h, gt_iff_lt, assert_true, ok_bind, List.length_replicate, Nat.zero_add]
  rw [if_pos (by omega)]
  simp only [ok_bind, List.take_zero, List.nil_append, List.drop_zero]
  rw [if_pos (by simp only [List.length_append, List.length_drop, List.length_replicate, h1]; omega)]
  simp only [ok_bind]
  rw [if_pos (by
    simp only [List.length_append, List.length_drop, List.length_take, List.length_replicate, h1]; omega)]
  congr 1
  rw [List.take_of_length_le (l := chunks) (by omega), List.take_of_length_le (l := data.drop 33) (by simp)]
  rw [show (data.take 33 ++ (List.replicate (data.length + chunks.length) (0 : UInt8)).drop 33).take 33 =
      data.take 33 by rw [List.take_append_of_le_length (by omega), List.take_take]; simp]
  have h2 : (data.take 33 ++ chunks).length = 33 + chunks.length := by rw [List.length_append, h1]
  rw [List.take_append_of_le_length (by omega), List.take_of_length_le (l := data.take 33 ++ chunks) (by omega),
    List.drop_eq_nil_of_le (i := 33 + chunks.length + (data.length - 33)) (by
      simp only [List.length_append, List.length_drop, List.length_replicate, h1]; omega), List.append_nil]

theorem file_split (ihdr : Chunk) (cs : List Chunk) (ht : ihdr.type = "IHDR") (hl : ihdr.data.length = 13) :
    (file (ihdr :: cs)).take 33 = file [ihdr] ∧ (file (ihdr :: cs)).drop 33 = cs.flatMap Chunk.bytes := by
  have hlen : (file [ihdr]).length = 33 := by
    simp [file, Chunk.bytes, be32, ht, hl, typeBytes]
  have e : file (ihdr :: cs) = file [ihdr] ++ cs.flatMap Chunk.bytes := by simp [file]
  rw [e, ← hlen]
  exact ⟨List.take_left, List.drop_left⟩

theorem onLogo_eq (base64 : List UInt8 → String) (l : Logo) :
    onLogoDownloaded base64 l = .ok (if 93 < l.data.length then [doc base64 plte trns l] else []) := by
  unfold onLogoDownloaded
  by_cases h : l.data.length ≤ 93
  · rw [if_pos h, if_neg (by omega)]
  · rw [if_neg h, if_pos (by omega)]
    unfold makeJsonValue makeBase64Png
    rw [insert_eq (by omega)]
    simp only [ok_bind, doc, painted, chunks_eq, List.append_assoc]
    cases l.services <;> simp

theorem onLogos_eq (base64 : List UInt8 → String) (ls : List Logo) :
    onLogos base64 ls = .ok ((ls.filter (fun l => decide (93 < l.data.length))).map (doc base64 plte trns)) := by
  induction ls with
  | nil => rfl
  | cons l ls ih =>
    unfold onLogos
    rw [onLogo_eq, ih]
    simp only [ok_bind, List.filter_cons, decide_eq_true_eq]
    split <;> rfl

end Mirakc.LogoCollector
