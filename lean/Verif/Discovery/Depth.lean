import Verif.Discovery.Names

/-!
# C41: how deep `get_addr` nests

`get_addr` calls itself for every reference, on data from the network. Here it is run on a stack that has room for a given number of its calls.
-/

namespace Verif.Discovery

/-- `get_addr`, lines 67-91, like `getAddrN`, with room for `frames` calls on the stack, this one included. Without room the behaviour is undefined
(in practice the program is killed). How large a frame is, is not modelled. -/
def getAddrOn (msg : Bytes) : Nat → Nat → Nat → List Nat → Outcome (List Bytes × Nat)
  | 0, _, _, _ => .ub
  | _ + 1, 0, _, _ => .hang
  | below + 1, fuel + 1, pos, seen =>
    match msg.drop pos with
    | [] => .throws .outOfRange
    | b :: _ =>
      if b.toNat = 0 then .ok ([], pos + 1)
      else if b.toNat / 64 = 3 then
        match get16 msg pos with
        | .ok (ref, p) =>
          if ref % 4096 ∈ seen then .throws .logicError
          else match getAddrOn msg below fuel (ref % 4096) (ref % 4096 :: seen) with
            | .ok (addr, _) => .ok (addr, p)
            | .throws e => .throws e
            | .ub => .ub
            | .hang => .hang
        | .throws e => .throws e
        | .ub => .ub
        | .hang => .hang
      else
        match getLabel msg pos with
        | .ok (l, p) =>
          match getAddrOn msg (below + 1) fuel p seen with
          | .ok (addr, p') => .ok (l :: addr, p')
          | .throws e => .throws e
          | .ub => .ub
          | .hang => .hang
        | .throws e => .throws e
        | .ub => .ub
        | .hang => .hang

/-- Different numbers below `n` are at most `n` many. -/
theorem nodup_below : ∀ (n : Nat) (l : List Nat), l.Nodup → (∀ x ∈ l, x < n) → l.length ≤ n := by
  intro n
  induction n with
  | zero =>
    intro l _ hb
    cases l with
    | nil => simp
    | cons x l => exact absurd (hb x (by simp)) (by omega)
  | succ n ih =>
    intro l hl hb
    have h := ih (l.erase n) (hl.erase n) (fun x hx => by
      have h1 := hb x (List.mem_of_mem_erase hx)
      have h2 : x ≠ n := fun e => by
        subst e
        exact (List.Nodup.not_mem_erase hl) hx
      omega)
    have := List.length_erase (a := n) (l := l)
    split at this <;> omega

theorem getAddrOn_enough (msg : Bytes) : ∀ (fuel frames pos : Nat) (seen : List Nat), seen.Nodup → (∀ x ∈ seen, x < 4096) →
    4097 ≤ frames + seen.length → getAddrOn msg frames fuel pos seen = getAddrN msg fuel pos seen := by
  intro fuel
  induction fuel with
  | zero =>
    intro frames pos seen hn hb hf
    have := nodup_below 4096 seen hn hb
    obtain ⟨f, rfl⟩ : ∃ f, frames = f + 1 := ⟨frames - 1, by omega⟩
    rfl
  | succ fuel ih =>
    intro frames pos seen hn hb hf
    have := nodup_below 4096 seen hn hb
    obtain ⟨f, rfl⟩ : ∃ f, frames = f + 1 := ⟨frames - 1, by omega⟩
    unfold getAddrOn getAddrN
    cases List.drop pos msg with
    | nil => rfl
    | cons b rest =>
      dsimp only
      by_cases hz : b.toNat = 0
      · rw [if_pos hz, if_pos hz]
      · rw [if_neg hz, if_neg hz]
        by_cases hc : b.toNat / 64 = 3
        · rw [if_pos hc, if_pos hc]
          cases hg : get16 msg pos with
          | ok q =>
            obtain ⟨ref, p⟩ := q
            dsimp only
            split
            · rfl
            · rename_i hm
              rw [ih f (ref % 4096) (ref % 4096 :: seen) (List.nodup_cons.mpr ⟨hm, hn⟩)
                (fun x hx => by
                  rcases List.mem_cons.mp hx with rfl | hx
                  · exact Nat.mod_lt _ (by omega)
                  · exact hb x hx)
                (by simp only [List.length_cons]; omega)]
              cases getAddrN msg fuel (ref % 4096) (ref % 4096 :: seen) <;> rfl
          | throws e => rfl
          | ub => rfl
          | hang => rfl
        · rw [if_neg hc, if_neg hc]
          cases hg : getLabel msg pos with
          | ok q =>
            obtain ⟨l, p⟩ := q
            dsimp only
            rw [ih (f + 1) p seen hn hb hf]
            cases getAddrN msg fuel p seen <;> rfl
          | throws e => rfl
          | ub => rfl
          | hang => rfl

/-- **C41, on a limited stack.** Room for 4097 calls is enough for every message and every position: the result is the one on an unlimited stack. (The
decoder of IPP messages has no such bound: `C111_false`.) -/
theorem C41_depth (msg : Bytes) (pos frames : Nat) (h : 4097 ≤ frames) {o : Outcome (List Bytes × Nat)} (run : GetAddr msg pos [] o) :
    ∃ n, ∀ fuel, n ≤ fuel → getAddrOn msg frames fuel pos [] = o := by
  obtain ⟨n, hn⟩ := getAddr_fuel run
  exact ⟨n, fun fuel hf => by rw [getAddrOn_enough msg fuel frames pos [] .nil (by simp) (by simpa using h), hn fuel hf]⟩

/-- A chain of references: one call for each reference and one for the name at its end. With less room the program is lost. -/
example : getAddrOn [192, 2, 192, 4, 192, 6, 1, 120, 0] 4 9 0 [] = .ok ([[120]], 2) ∧ getAddrOn [192, 2, 192, 4, 192, 6, 1, 120, 0] 3 9 0 [] = .ub ∧
    getAddrN [192, 2, 192, 4, 192, 6, 1, 120, 0] 9 0 [] = .ok ([[120]], 2) := by decide +kernel

end Verif.Discovery
