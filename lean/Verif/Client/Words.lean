import Verif.Client.PrintProps

/-!
# The words that each sub-command of ippclient takes (C73)
-/

namespace Verif.Client

open Verif.Tools Verif.Tools.Spec

namespace Spec

/-- How many words each sub-command takes besides its options, as its usage has it: an address; for `set-attrs` also what to set, for `print` also the file. -/
def wordsTaken : List (Bytes × Nat) :=
  [(ascii "info", 1), (ascii "identify", 1), (ascii "get-attrs", 1), (ascii "set-attrs", 2), (ascii "get-jobs", 1), (ascii "cancel-job", 1), (ascii "print", 2)]

end Spec

open Verif.Client.Spec

theorem commands_words : ∀ c ∈ commands, (c.1, c.2.2.length) ∈ wordsTaken ∧ ∀ p ∈ c.2.2, p.optional = false := by decide +kernel

/-- **C73**, what it takes to get anywhere: if anything is done at all - a printer asked, or an end with another code than 1 and without the help - then the first word is a sub-command, and behind
its options there are exactly as many words as it takes. -/
theorem C73_words (w : World) (args : List Bytes)
    (h : (main w args).events ≠ [] ∨ ∀ e, (main w args).out = .ok e → e.code ≠ 1 ∧ ascii "-h" ∉ args ∧ ascii "--help" ∉ args) :
    ∃ sub n, ∃ (uses : List Use) (pos : List Bytes), (sub, n) ∈ wordsTaken ∧ args = sub :: ((uses.map (·.words)).flatten ++ pos) ∧ pos.length = n ∧
      ∃ opts poss, (sub, opts, poss) ∈ commands ∧ ∀ u ∈ uses, IsUse opts u := by
  by_cases hx : ∀ sub opts poss rest uses pos, args = sub :: rest → (sub, opts, poss) ∈ commands → ¬ Accounts opts poss rest uses pos
  · obtain ⟨h1, e, h2, _, h3⟩ := C73_rejects w args hx
    rcases h with h | h
    · exact absurd h1 h
    · obtain ⟨g1, g2, g3⟩ := h e h2
      rcases h3 with h3 | ⟨_, h3 | h3⟩
      · exact absurd h3 g1
      · exact absurd h3 g2
      · exact absurd h3 g3
  · simp only [Classical.not_forall, Classical.not_not] at hx
    obtain ⟨sub, opts, poss, rest, uses, pos, rfl, hc, ha⟩ := hx
    obtain ⟨hw, ho⟩ := commands_words _ hc
    refine ⟨sub, poss.length, uses, pos, hw, by rw [ha.words], ?_, opts, poss, hc, ha.uses⟩
    have hle := ha.notMore
    by_cases hlt : pos.length < poss.length
    · have := ha.enough pos.length poss[pos.length] (List.getElem?_eq_getElem hlt) (Nat.le_refl _)
      rw [ho _ (List.getElem_mem hlt)] at this
      cases this
    · omega

example : (main world [ascii "set-attrs", ascii "-v", ascii "ipp://p", ascii "a=b"]).events ≠ [] ∧ (main world [ascii "set-attrs", ascii "-v", ascii "ipp://p"]).events = [] := by
  have h1 : (main world [ascii "set-attrs", ascii "-v", ascii "ipp://p", ascii "a=b"]).events.isEmpty = false := by decide +kernel
  have h2 : (main world [ascii "set-attrs", ascii "-v", ascii "ipp://p"]).events.isEmpty = true := by decide +kernel
  exact ⟨fun h => (by rw [h] at h1; cases h1), List.isEmpty_iff.mp h2⟩

end Verif.Client
