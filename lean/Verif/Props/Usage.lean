import Verif.Proof.Usage
import Verif.Props.Cli
/-
C135: every command line described by the usage is understood.
-/
namespace Mirakc.Props
open Mirakc.Main Mirakc.Spec.Usage
open Mirakc.Spec.Cli (names Only)
open Mirakc.Usage (Leaf Accepted args)
open Mirakc.Cli (Args Reader Value Out)
open Mirakc.Options (Refusal)

/-- **C135**.  A command line described by the usage runs the command it says, with the numbers, strings and flags
given, on the file named or the standard input.  (For an empty name of the file of record-service, see C146.) -/
theorem C135_runs (d : Reader) (w : World) (l : List Leaf) (cmd : Cmd) (ha : Accepted l) (hr : Runs l) (hs : Says d l cmd)
    (hf : .value "--file" [] ∉ l) (hw : (∃ s, s ≠ [] ∧ .value "<file>" s ∈ l) ∨ w.opened = true) :
    Cli.main d w (args l) = (Main.main w cmd).map .ended :=
  C129_args w d _ cmd (Usage.noHelp hr) (Usage.supplied ha hw) (Usage.given_of_says ha hr hs) (Usage.file_named hf)

/-- **C135**, understood: if its numbers can be read, a command line described by the usage says a command: all the
options required are there, and never two that exclude each other. -/
theorem C135_says (d : Reader) (l : List Leaf) (ha : Accepted l) (hr : Runs l) (hd : Readable d l) :
    ∃ cmd, Says d l cmd ∧ Legal cmd :=
  Usage.says_of ha hr hd

/-- **C135**, refused: if one of its numbers cannot be read, the process ends before it has read anything. -/
theorem C135_refused (d : Reader) (l : List Leaf) (ha : Accepted l) (hr : Runs l) (hd : ¬ Readable d l) :
    ∃ r, ∀ w, Cli.main d w (args l) = .error (.refused r) := by
  obtain ⟨c, hc⟩ := Usage.only_of ha hr
  exact C129_refused d _ c (Usage.noHelp hr) hc fun cmd hg => hd (Usage.readable_of ha hr hg)

theorem showHelp_none {a : Args} : ∀ cs : List String, (∀ x ∈ cs, a x = some (.bool false)) →
    Cli.showHelp a cs = .ok none
  | [], _ => rfl
  | c :: cs, h => by
    unfold Cli.showHelp
    rw [show Cli.flag a c = .ok false from Cli.flag_iff.2 (h c List.mem_cons_self)]
    exact showHelp_none cs fun x hx => h x (List.mem_cons_of_mem _ hx)

/-- **C135**, help: a command line described by the usage and asking for help shows the help of the command named, or
the usage. -/
theorem C135_help (d : Reader) (w : World) (l : List Leaf) (ha : Accepted l) (hh : .word "-h" ∈ l ∨ .word "--help" ∈ l) :
    ∃ c, Cli.main d w (args l) = .ok (.help c) ∧ ∀ x, c = some x ↔ x ∈ names ∧ .word x ∈ l := by
  have ho := Usage.help_of ha hh
  have e1 : args l "-h" = some (.bool (decide (.word "-h" ∈ l))) := Usage.args_word (by decide +kernel) l
  have e2 : args l "--help" = some (.bool (decide (.word "--help" ∈ l))) := Usage.args_word (by decide +kernel) l
  have two : ∀ x ∈ names, ∀ y ∈ names, y ≠ x →
      Usage.most (fun t => Usage.is false x t || Usage.is false y t) Usage.help = some 1 := by decide +kernel
  have hh' : args l "-h" = some (.bool true) ∨ (args l "-h" = some (.bool false) ∧ args l "--help" = some (.bool true)) := by
    by_cases h : Leaf.word "-h" ∈ l
    · exact .inl (by rw [e1, decide_eq_true h])
    · refine .inr ⟨by rw [e1, decide_eq_false h], by rw [e2, decide_eq_true (hh.resolve_left h)]⟩
  by_cases hc : ∃ x ∈ names, Leaf.word x ∈ l
  · obtain ⟨x, hx, hl⟩ := hc
    have hx' : ∀ y ∈ names, y ≠ x → Leaf.word y ∉ l := fun y hy hne => ho.not_two hne (two x hx y hy hne) hl
    have only : Only (args l) x := by
      refine ⟨hx, fun y hy => ?_⟩
      rw [Usage.args_word (Usage.names_word y hy)]
      by_cases e : y = x
      · rw [e, decide_eq_true hl, decide_eq_true rfl]
      · rw [decide_eq_false (hx' y hy e), decide_eq_false e]
    refine ⟨some x, C129_help d _ x hh' only w, fun y => ?_⟩
    constructor
    · intro h; cases h; exact ⟨hx, hl⟩
    · rintro ⟨h1, h2⟩
      apply Classical.byContradiction
      intro h
      exact hx' y h1 (fun e => h (by rw [e])) h2
  · have hc' : ∀ x ∈ Cli.commands, args l x = some (.bool false) := fun x hx => by
      rw [Usage.args_word (Usage.names_word x (Cli.names_perm.1 hx)),
        decide_eq_false fun h => hc ⟨x, Cli.names_perm.1 hx, h⟩]
    refine ⟨none, ?_, fun x => ⟨(fun h => by cases h), fun h => absurd ⟨x, h.1, h.2⟩ hc⟩⟩
    unfold Cli.main
    rcases hh' with h | ⟨h, h'⟩
    · rw [show Cli.flag (args l) "-h" = .ok true from Cli.flag_iff.2 h, showHelp_none _ hc']
      rfl
    · rw [show Cli.flag (args l) "-h" = .ok false from Cli.flag_iff.2 h,
        show Cli.flag (args l) "--help" = .ok true from Cli.flag_iff.2 h', showHelp_none _ hc']
      rfl

namespace C135ex
/-- mirakc-arib filter-service --sid=`sid` file.ts, the name coming first. -/
def line (sid : List Char) : List Leaf :=
  [.value "<file>" "file.ts".toList, .word "filter-service", .value "--sid" sid]
theorem accepted (sid : List Char) : Accepted (line sid) := by
  refine ⟨Usage.filterService, by decide +kernel,
    [.word "filter-service", .value "--sid" sid, .value "<file>" "file.ts".toList],
    ⟨[_], [_, _], rfl, rfl, [_], [_], rfl, ⟨_, rfl⟩, .inr ⟨_, rfl⟩⟩, ?_⟩
  exact (List.perm_append_comm (l₁ := [Leaf.value "<file>" "file.ts".toList])
    (l₂ := [.word "filter-service", .value "--sid" sid]))
theorem runs (sid : List Char) : Runs (line sid) := by
  refine ⟨?_, ?_, ?_⟩ <;> simp [line]
theorem says : Says C129ex.reader (line "0x1".toList) (.filterService (some 1)) :=
  ⟨by simp [line], 1, rfl, "0x1".toList, by simp [line], by decide +kernel⟩
theorem readable : Readable C129ex.reader (line "0x1".toList) := by
  intro n s h
  simp only [line, List.mem_cons, List.not_mem_nil, or_false, Leaf.value.injEq, reduceCtorEq, false_or] at h
  rcases h with ⟨rfl, rfl⟩ | ⟨rfl, rfl⟩
  · decide +kernel
  · decide +kernel
theorem unreadable : ¬ Readable C129ex.reader (line ['1', 'a']) := fun h =>
  absurd ((h "--sid" ['1', 'a'] (by simp [line])).1 (by decide)) (by decide +kernel)
/-- mirakc-arib collect-eits -h -/
def helps : List Leaf := [.word "collect-eits", .word "-h"]
theorem accepted_help : Accepted helps := by
  refine ⟨Usage.help, by decide +kernel, [.word "-h", .word "collect-eits"],
    ⟨[_], [_], rfl, .inl rfl, .inr (.inr (.inr (.inl rfl)))⟩, .swap _ _ _⟩
end C135ex

example : Accepted (C135ex.line "0x1".toList) ∧ Says C129ex.reader (C135ex.line "0x1".toList) (.filterService (some 1)) ∧
    ∃ e, Cli.main C129ex.reader C95ex.world (args (C135ex.line "0x1".toList)) = .ok (.ended e) ∧ e.bytes.length = 188 * 8 := by
  refine ⟨C135ex.accepted _, C135ex.says, ?_⟩
  rw [C135_runs _ _ _ _ (C135ex.accepted _) (C135ex.runs _) C135ex.says (by simp [C135ex.line]) (.inr rfl)]
  obtain ⟨e, h1, h2⟩ := C95ex.check (r := main C95ex.world (.filterService (some 1)))
    (P := fun e => decide (e.bytes.length = 188 * 8)) (by decide +kernel)
  rw [h1]
  exact ⟨e, rfl, of_decide_eq_true h2⟩

example : ∃ cmd, Says C129ex.reader (C135ex.line "0x1".toList) cmd ∧ Legal cmd :=
  C135_says _ _ (C135ex.accepted _) (C135ex.runs _) C135ex.readable

example : ∃ r, ∀ w, Cli.main C129ex.reader w (args (C135ex.line ['1', 'a'])) = .error (.refused r) :=
  C135_refused _ _ (C135ex.accepted _) (C135ex.runs _) C135ex.unreadable

/-- Both options are not a command line. -/
example (f : List Leaf) : ¬ Accepted (.word "collect-eits" :: .word "--only-actual" :: .word "--only-others" :: f) := by
  rintro ⟨p, hp, h⟩
  have h : Usage.Of p _ := h
  by_cases e : p = Usage.collectEits
  · subst e
    exact absurd (by simp) (h.not_two (n := "--only-actual") (m := "--only-others") (by decide) (by decide +kernel) (by simp))
  · have : Usage.most (Usage.is false "--only-actual") p = some 0 := by
      clear h
      clear h
      revert p
      decide +kernel
    exact absurd (by simp) (h.word_no this)

example : ∃ c, Cli.main C129ex.reader C95ex.world (args C135ex.helps) = .ok (.help c) ∧
    ∀ x, c = some x ↔ x ∈ names ∧ .word x ∈ C135ex.helps :=
  C135_help _ _ _ C135ex.accepted_help (.inl (by simp [C135ex.helps]))

end Mirakc.Props
