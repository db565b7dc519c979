import Verif.Spec.PacketLoop
import Verif.Proof.FileSource
/-
Lemmas about the packet loop and about sources.
-/
namespace Mirakc
open Mirakc.Spec
open FileSource (bind_ok bind_error)

theorem feedLoop_consumes {P τ σ} (src : Source P τ) (snk : Sink P σ) {t ps}
    (hy : Yields src t ps) :
    ∀ fuel s t' s', ps.length < fuel → feedLoop src snk fuel t s = .ok (t', s') →
      ∃ cs, Consumes snk s ps cs s' := by
  induction hy with
  | stop h =>
    intro fuel s t' s' hf he
    cases fuel with
    | zero => omega
    | succ n =>
      simp only [feedLoop, h, bind_ok, Except.ok.injEq, Prod.mk.injEq] at he
      exact ⟨[], by rw [← he.2]; exact .eof⟩
  | @more t t1 p ps h _ ih =>
    intro fuel s t' s' hf he
    cases fuel with
    | zero => simp at hf
    | succ n =>
      simp only [feedLoop, h, bind_ok] at he
      cases hh : snk.handle s p with
      | error e => simp [hh] at he
      | ok r =>
        obtain ⟨ok, s1⟩ := r
        simp only [hh, bind_ok] at he
        cases ok with
        | true =>
          simp only [if_true] at he
          obtain ⟨cs, hc⟩ := ih n s1 t' s' (by simp at hf; omega) he
          exact ⟨p :: cs, .accept hh hc⟩
        | false =>
          simp only [Bool.false_eq_true, if_false, Except.ok.injEq, Prod.mk.injEq] at he
          exact ⟨[p], by rw [← he.2]; exact .refuse hh⟩

theorem feedLoop_total {P τ σ} (src : Source P τ) (snk : Sink P σ) (ht : Total snk) {t ps}
    (hy : Yields src t ps) :
    ∀ fuel s, ps.length < fuel → ∃ r, feedLoop src snk fuel t s = .ok r := by
  induction hy with
  | stop h =>
    intro fuel s hf
    cases fuel with
    | zero => omega
    | succ n => exact ⟨_, by simp only [feedLoop, h, bind_ok]; rfl⟩
  | @more t t1 p ps h _ ih =>
    intro fuel s hf
    cases fuel with
    | zero => simp at hf
    | succ n =>
      obtain ⟨⟨ok, s1⟩, hh⟩ := ht.handle s p
      cases ok with
      | true =>
        obtain ⟨r, hr⟩ := ih n s1 (by simp at hf; omega)
        exact ⟨r, by simp only [feedLoop, h, bind_ok, hh, if_true, hr]⟩
      | false => exact ⟨_, by simp only [feedLoop, h, bind_ok, hh]; rfl⟩

theorem consumes_logged {P σ} (snk : Sink P σ) {a b : σ × List (Call P)} {ps cs}
    (h : Consumes (logged snk) a ps cs b) :
    Consumes snk a.1 ps cs b.1 ∧ b.2 = a.2 ++ cs.map .handle := by
  induction h with
  | eof => exact ⟨.eof, by simp⟩
  | @refuse s s' p ps h =>
    cases hh : snk.handle s.1 p with
    | error e => simp [logged, hh, Except.map] at h
    | ok r =>
      simp only [logged, hh, Except.map, Except.ok.injEq, Prod.mk.injEq] at h
      obtain ⟨h1, h2⟩ := h
      subst h2
      refine ⟨.refuse (s' := r.2) ?_, by simp⟩
      rw [hh, ← h1]
  | @accept s s' s'' p ps cs h _ ih =>
    cases hh : snk.handle s.1 p with
    | error e => simp [logged, hh, Except.map] at h
    | ok r =>
      simp only [logged, hh, Except.map, Except.ok.injEq, Prod.mk.injEq] at h
      obtain ⟨h1, h2⟩ := h
      subst h2
      obtain ⟨i1, i2⟩ := ih
      refine ⟨.accept (s' := r.2) (by rw [hh, ← h1]) i1, by rw [i2]; simp⟩

theorem Total.logged {P σ} {snk : Sink P σ} (h : Total snk) : Total (logged snk) := by
  constructor
  · intro s; obtain ⟨r, e⟩ := h.start s.1; exact ⟨_, by simp [Spec.logged, e, Except.map]; rfl⟩
  · intro s p; obtain ⟨r, e⟩ := h.handle s.1 p; exact ⟨_, by simp [Spec.logged, e, Except.map]; rfl⟩
  · intro s; obtain ⟨r, e⟩ := h.finish s.1; exact ⟨_, by simp [Spec.logged, e, Except.map]; rfl⟩

namespace FileSource

/-- Every state satisfying the invariant yields the packets of the remaining stream. -/
theorem yields_of_inv (bs : List UInt8) :
    ∀ n o s, bs.length - o < n → Inv s → rest s = bs.drop o →
      ∃ offs, Frames bs o offs ∧ Yields source s (offs.map (slice bs)) := by
  intro n
  induction n with
  | zero => intro o s h; omega
  | succ n ih =>
    intro o s hn hi hr
    rcases getNextPacket_spec bs o s hi hr with ⟨s', e, hf⟩ | ⟨s', o', e, hi', hr', hle, hlt, hf⟩
    · exact ⟨[], hf, .stop e⟩
    · obtain ⟨offs, h1, h2⟩ := ih (o' + 188) s' (by omega) hi' hr'
      exact ⟨o' :: offs, hf _ h1, .more e h2⟩

theorem yields_init (reads : List (List UInt8)) (h : ∀ c ∈ reads, c.length ≤ 16384) :
    ∃ offs, Frames (streamOf reads) 0 offs ∧
      Yields source (init reads) (offs.map (slice (streamOf reads))) := by
  refine yields_of_inv (streamOf reads) _ 0 (init reads) (Nat.lt_succ_self _) (inv_init _ h) ?_
  simp [rest, init]

theorem frames_length {bs o offs} (h : Frames bs o offs) : offs.length + o ≤ bs.length + o := by
  have : offs.length * 188 + min o bs.length ≤ bs.length := by
    induction h with
    | done => simp; omega
    | packet _ _ _ ih => simp; omega
    | short => simp; omega
    | lost => simp; omega
    | skip i _ _ _ _ _ _ ih => simp; omega
  omega

theorem frames_aligned (ps : List (List UInt8)) :
    ∀ (pre tail : List UInt8), (∀ p ∈ ps, p.length = 188 ∧ p.head? = some 0x47) →
      tail.length < 188 →
      ∃ offs, Frames (pre ++ ps.flatten ++ tail) pre.length offs ∧
        offs.map (slice (pre ++ ps.flatten ++ tail)) = ps := by
  induction ps with
  | nil =>
    intro pre tail _ ht
    exact ⟨[], .done (by simp; omega), rfl⟩
  | cons p ps ih =>
    intro pre tail hp ht
    obtain ⟨hl, hh⟩ := hp p (by simp)
    obtain ⟨offs, h1, h2⟩ := ih (pre ++ p) tail (fun q hq => hp q (by simp [hq])) ht
    have e : pre ++ p ++ ps.flatten ++ tail = pre ++ (p :: ps).flatten ++ tail := by simp
    rw [e] at h1 h2
    refine ⟨pre.length :: offs, .packet ?_ ?_ ?_, ?_⟩
    · simp; omega
    · have : (pre ++ (p :: ps).flatten ++ tail)[pre.length]? = p[0]? := by
        rw [List.append_assoc, List.getElem?_append_right (by simp)]
        simp only [Nat.sub_self, List.flatten_cons, List.append_assoc]
        rw [List.getElem?_append_left (by omega)]
      rw [this, ← hh, List.head?_eq_getElem?]
    · simpa [hl] using h1
    · simp only [List.map_cons, h2]
      congr 1
      simp only [slice, List.append_assoc, List.drop_append_length, List.flatten_cons]
      rw [← hl, List.take_append_length]

end FileSource
end Mirakc
