import Verif.Tools.Args

/-! # Every argument is accounted for -/

namespace Verif.Tools

/-! ## Specification -/

namespace Spec

/-- One use of an option on the command line: which one, the words it takes up, the value it gets. -/
structure Use where
  option : Nat
  words : List Bytes
  value : Val

/-- The words are a use of a declared option: one of its names, then its value if it takes one. Where options share a name the first is meant. -/
def IsUse (opts : List Opt) (u : Use) : Prop :=
  ∃ o name, opts[u.option]? = some o ∧ name ∈ o.names ∧ (∀ j o', j < u.option → opts[j]? = some o' → name ∉ o'.names) ∧
    ((o.takes = none ∧ u.words = [name] ∧ u.value = .flag) ∨
     (∃ conv w, o.takes = some conv ∧ u.words = [name, w] ∧ conv w = some u.value))

/-- The command line consists of these uses, one after the other, and then the positional arguments, the first of which is no option's name. -/
structure Accounts (opts : List Opt) (poss : List Pos) (args : List Bytes) (uses : List Use) (pos : List Bytes) : Prop where
  words : args = (uses.map (·.words)).flatten ++ pos
  uses : ∀ u ∈ uses, IsUse opts u
  ended : ∀ a, pos.head? = some a → ∀ o ∈ opts, a ∉ o.names
  enough : ∀ i p, poss[i]? = some p → pos.length ≤ i → p.optional = true
  notMore : pos.length ≤ poss.length

/-- The value that the last use of an option gives it. -/
def lastValue (uses : List Use) (i : Nat) : Option Val := ((uses.filter (fun u => u.option == i)).map (·.value)).getLast?

end Spec

open Spec

/-! ## Proofs -/

theorem first_some {opts : List Opt} {k : Nat} {name : Bytes} {i : Nat} {o : Opt} (h : first opts k name = some (i, o)) :
    k ≤ i ∧ opts[i - k]? = some o ∧ name ∈ o.names ∧ ∀ j o', j < i - k → opts[j]? = some o' → name ∉ o'.names := by
  induction opts generalizing k with
  | nil => cases h
  | cons x xs ih =>
    unfold first at h
    split at h
    · rename_i hm
      cases h
      refine ⟨Nat.le_refl _, by simp, hm, ?_⟩
      intro j o' hj; omega
    · rename_i hm
      obtain ⟨h1, h2, h3, h4⟩ := ih h
      have e : i - k = (i - (k + 1)) + 1 := by omega
      refine ⟨by omega, by rw [e, List.getElem?_cons_succ]; exact h2, h3, ?_⟩
      intro j o' hj ho
      cases j with
      | zero => simp at ho; subst ho; exact hm
      | succ j => rw [List.getElem?_cons_succ] at ho; exact h4 j o' (by omega) ho

theorem first_none {opts : List Opt} {k : Nat} {name : Bytes} : first opts k name = none ↔ ∀ o ∈ opts, name ∉ o.names := by
  induction opts generalizing k with
  | nil => simp [first]
  | cons x xs ih =>
    unfold first
    split
    · rename_i hm; simp [hm]
    · rename_i hm; simp [hm, ih]

theorem first_eq {opts : List Opt} {i k : Nat} {name : Bytes} {o : Opt} (h1 : opts[i]? = some o) (h2 : name ∈ o.names)
    (h3 : ∀ j o', j < i → opts[j]? = some o' → name ∉ o'.names) : first opts k name = some (i + k, o) := by
  induction opts generalizing k i with
  | nil => cases h1
  | cons x xs ih =>
    unfold first
    cases i with
    | zero => simp at h1; subst h1; rw [if_pos h2]; simp
    | succ i =>
      rw [if_neg (h3 0 x (by omega) rfl)]
      rw [List.getElem?_cons_succ] at h1
      rw [ih h1 (fun j o' hj ho => h3 (j + 1) o' (by omega) (by simpa using ho))]
      congr 2; omega

/-- The values after some uses. -/
def after (vals : Vals) (uses : List Use) : Vals := uses.foldl (fun v u => v.set u.option u.value) vals

theorem after_last (uses : List Use) : ∀ vals i, after vals uses i = (lastValue uses i).or (vals i) := by
  induction uses with
  | nil => intro vals i; rfl
  | cons u us ih =>
    intro vals i
    show after (vals.set u.option u.value) us i = _
    rw [ih]
    unfold lastValue Vals.set
    by_cases h : i = u.option
    · subst h
      simp only [if_true, List.filter_cons, beq_self_eq_true, List.map_cons]
      cases hl : ((us.filter (fun w => w.option == u.option)).map (·.value)) with
      | nil => rfl
      | cons a as => rw [List.getLast?_cons_cons]; rw [List.getLast?_eq_some_getLast (List.cons_ne_nil a as)]; rfl
    · rw [if_neg h, List.filter_cons, if_neg (by simp; exact fun h' => h h'.symm)]

theorem options_done {opts : List Opt} {args rest : List Bytes} {vals vals' : Vals} (h : options opts args vals = .done rest vals') :
    ∃ uses : List Use, args = (uses.map (·.words)).flatten ++ rest ∧ (∀ u ∈ uses, IsUse opts u) ∧ (∀ a, rest.head? = some a → ∀ o ∈ opts, a ∉ o.names) ∧
      vals' = after vals uses := by
  fun_induction options opts args vals with
  | case1 vals => cases h; exact ⟨[], rfl, nofun, nofun, rfl⟩
  | case2 name rest2 vals hf =>
    cases h
    refine ⟨[], rfl, nofun, ?_, rfl⟩
    intro a ha; simp at ha; subst ha; exact first_none.1 hf
  | case3 name rest2 vals i o hf ht ih =>
    obtain ⟨uses, h1, h2, h3, h4⟩ := ih h
    obtain ⟨-, g1, g2, g3⟩ := first_some hf
    refine ⟨⟨i, [name], .flag⟩ :: uses, by rw [h1]; rfl, ?_, h3, h4⟩
    intro u hu
    rcases List.mem_cons.1 hu with rfl | hu
    · exact ⟨o, name, g1, g2, g3, .inl ⟨ht, rfl, rfl⟩⟩
    · exact h2 u hu
  | case4 => cases h
  | case5 name vals i o hf conv ht v rest2 x hx ih =>
    obtain ⟨uses, h1, h2, h3, h4⟩ := ih h
    obtain ⟨-, g1, g2, g3⟩ := first_some hf
    refine ⟨⟨i, [name, v], x⟩ :: uses, by rw [h1]; rfl, ?_, h3, h4⟩
    intro u hu
    rcases List.mem_cons.1 hu with rfl | hu
    · exact ⟨o, name, g1, g2, g3, .inr ⟨conv, v, ht, rfl, hx⟩⟩
    · exact h2 u hu
  | case6 => cases h

theorem options_complete {opts : List Opt} {rest : List Bytes} (hr : ∀ a, rest.head? = some a → ∀ o ∈ opts, a ∉ o.names) (uses : List Use) :
    ∀ vals, (∀ u ∈ uses, IsUse opts u) → options opts ((uses.map (·.words)).flatten ++ rest) vals = .done rest (after vals uses) := by
  induction uses with
  | nil =>
    intro vals _
    cases rest with
    | nil => rfl
    | cons a as =>
      show options opts (a :: as) vals = _
      unfold options
      rw [first_none.2 (hr a rfl)]; rfl
  | cons u us ih =>
    intro vals hu
    have ih := fun vals => ih vals (fun w hw => hu w (List.mem_cons_of_mem _ hw))
    obtain ⟨o, name, h1, h2, h3, h4⟩ := hu u List.mem_cons_self
    have hf := first_eq (k := 0) h1 h2 h3
    rw [Nat.add_zero] at hf
    rcases h4 with ⟨ht, hw, hv⟩ | ⟨conv, w, ht, hw, hv⟩
    · simp only [List.map_cons, List.flatten_cons, hw, List.cons_append, List.nil_append]
      unfold options
      rw [hf]; simp only [ht]
      rw [ih, ← hv]; rfl
    · simp only [List.map_cons, List.flatten_cons, hw, List.cons_append, List.nil_append]
      unfold options
      rw [hf]; simp only [ht, hv]
      rw [ih]; rfl

theorem positionals_enough (ps : List Pos) : ∀ (args got : List Bytes), args.length ≤ ps.length →
    (positionals ps args got = (got ++ args, [], none) ∧ ∀ i p, ps[i]? = some p → args.length ≤ i → p.optional = true) ∨
    (∃ p g, positionals ps args got = (g, [], some p) ∧ ¬ ∀ i p, ps[i]? = some p → args.length ≤ i → p.optional = true) := by
  induction ps with
  | nil =>
    intro args got h
    have : args = [] := List.eq_nil_of_length_eq_zero (by simpa using h)
    subst this
    exact .inl ⟨by simp [positionals], fun i p hp => by simp at hp⟩
  | cons p ps ih =>
    intro args got h
    cases args with
    | nil =>
      by_cases ho : p.optional = true
      · rcases ih [] got (Nat.zero_le _) with ⟨h1, h2⟩ | ⟨q, g, h1, h2⟩
        · left
          refine ⟨by rw [positionals, if_pos ho, h1], ?_⟩
          intro i q hq _
          cases i with
          | zero => simp at hq; subst hq; exact ho
          | succ i => exact h2 i q (by simpa using hq) (Nat.zero_le _)
        · right
          refine ⟨q, g, by rw [positionals, if_pos ho, h1], fun hall => h2 ?_⟩
          intro i q hq _
          exact hall (i + 1) q (by simpa using hq) (Nat.zero_le _)
      · right
        exact ⟨p, got, by rw [positionals, if_neg ho], fun hall => ho (hall 0 p rfl (Nat.zero_le _))⟩
    | cons a as =>
      simp only [List.length_cons, Nat.add_le_add_iff_right] at h
      rcases ih as (got ++ [a]) h with ⟨h1, h2⟩ | ⟨q, g, h1, h2⟩
      · left
        refine ⟨by rw [positionals, h1]; simp, ?_⟩
        intro i q hq hi
        cases i with
        | zero => simp at hi
        | succ i => exact h2 i q (by simpa using hq) (by simpa using hi)
      · right
        refine ⟨q, g, by rw [positionals, h1], fun hall => h2 ?_⟩
        intro i q hq hi
        exact hall (i + 1) q (by simpa using hq) (by simpa using hi)

/-- **C45.** When parsing succeeds, the command line consists of uses of options and of positional arguments, each option has the value that its last
use gives it (and counts as not set when there is none), and the positional arguments have the remaining words, in order. -/
theorem C45_sound {opts : List Opt} {poss : List Pos} {args : List Bytes} (h : (getArgs opts poss args).success = true) :
    ∃ uses pos, Accounts opts poss args uses pos ∧ (∀ i, (getArgs opts poss args).vals i = lastValue uses i) ∧ (getArgs opts poss args).positional = pos := by
  unfold getArgs at h ⊢
  cases ho : options opts args (fun _ => none) with
  | failed e vals => rw [ho] at h; cases h
  | done rest vals =>
    obtain ⟨uses, h1, h2, h3, rfl⟩ := options_done ho
    rw [ho] at h
    simp only at h ⊢
    by_cases hl : rest.length > poss.length
    · rw [if_pos hl] at h; cases h
    · rw [if_neg hl] at h ⊢
      rcases positionals_enough poss rest [] (by omega) with ⟨h4, h5⟩ | ⟨p, g, h4, -⟩
      · rw [h4]
        exact ⟨uses, rest, ⟨h1, h2, h3, h5, by omega⟩, fun i => by simp [after_last], rfl⟩
      · rw [h4] at h; cases h

/-- **C45.** Every command line that can be accounted for is accepted, with these values. -/
theorem C45_complete {opts : List Opt} {poss : List Pos} {args : List Bytes} {uses : List Use} {pos : List Bytes} (h : Accounts opts poss args uses pos) :
    (getArgs opts poss args).success = true ∧ (∀ i, (getArgs opts poss args).vals i = lastValue uses i) ∧ (getArgs opts poss args).positional = pos := by
  unfold getArgs
  rw [h.words, options_complete h.ended uses _ h.uses]
  simp only
  have := h.notMore
  rw [if_neg (by omega)]
  rcases positionals_enough poss pos [] h.notMore with ⟨h4, -⟩ | ⟨p, g, h4, h5⟩
  · rw [h4]
    exact ⟨rfl, fun i => by simp [after_last], rfl⟩
  · exact absurd h.enough h5

theorem options_failed {opts : List Opt} {args : List Bytes} {vals vals' : Vals} {e : Bytes} (h : options opts args vals = .failed e vals') : e ≠ [] := by
  have pre : ∀ (s : String) (t : Bytes), ascii s ≠ [] → ascii s ++ t ≠ [] := fun s t h h' => h (List.append_eq_nil_iff.1 h').1
  have bad : ∀ o l, badValue o l ≠ [] := by
    intro o l
    unfold badValue
    split
    · exact pre _ _ (by decide)
    · split
      · rename_i hne
        intro h'
        simp only [List.append_eq_nil_iff] at h'
        exact hne h'.1.1.1
      · simp only [List.append_assoc]; exact pre _ _ (by decide)
  fun_induction options opts args vals with
  | case1 => cases h
  | case2 => cases h
  | case3 _ _ _ _ _ _ _ ih => exact ih h
  | case4 => cases h; exact bad _ _
  | case5 _ _ _ _ _ _ _ _ _ _ _ ih => exact ih h
  | case6 => cases h; exact bad _ _

/-- **C45.** Otherwise there is a message. -/
theorem C45_message {opts : List Opt} {poss : List Pos} {args : List Bytes} (h : (getArgs opts poss args).success = false) :
    (getArgs opts poss args).errMsg ≠ [] := by
  have pre : ∀ (s : String) (t : Bytes), ascii s ≠ [] → ascii s ++ t ≠ [] := fun s t h h' => h (List.append_eq_nil_iff.1 h').1
  unfold getArgs at h ⊢
  cases ho : options opts args (fun _ => none) with
  | failed e vals => exact options_failed ho
  | done rest vals =>
    rw [ho] at h
    simp only at h ⊢
    split
    · exact pre _ _ (by decide)
    · rename_i hn
      rw [if_neg hn] at h
      split
      · exact pre _ _ (by decide)
      · rename_i he; rw [he] at h; cases h
      · exact pre _ _ (by decide)

/-- a command line with a repeated option, and its account -/
example : ∃ uses, Accounts [boolOpt [ascii "-h"], intOpt [ascii "-r", ascii "--res"]] [⟨ascii "in", false⟩, ⟨ascii "out", true⟩]
      [ascii "-r", ascii "300", ascii "-h", ascii "--res", ascii "-6x", ascii "a.pdf"] uses [ascii "a.pdf"] ∧
    lastValue uses 1 = some (.num (-6)) ∧ lastValue uses 0 = some .flag := by
  refine ⟨[⟨1, [ascii "-r", ascii "300"], .num 300⟩, ⟨0, [ascii "-h"], .flag⟩, ⟨1, [ascii "--res", ascii "-6x"], .num (-6)⟩], ⟨by decide +kernel, ?_, ?_, ?_, by decide⟩,
    by decide +kernel, by decide +kernel⟩
  · intro u hu
    simp only [List.mem_cons, List.not_mem_nil, or_false] at hu
    rcases hu with rfl | rfl | rfl
    · refine ⟨_, ascii "-r", rfl, by decide +kernel, ?_, .inr ⟨_, ascii "300", rfl, rfl, by decide +kernel⟩⟩
      intro j o' hj ho
      have : j = 0 := by simp only at hj; omega
      subst this; cases ho; decide +kernel
    · refine ⟨_, ascii "-h", rfl, by decide +kernel, ?_, .inl ⟨rfl, rfl, rfl⟩⟩
      intro j o' hj; simp only at hj; omega
    · refine ⟨_, ascii "--res", rfl, by decide +kernel, ?_, .inr ⟨_, ascii "-6x", rfl, rfl, by decide +kernel⟩⟩
      intro j o' hj ho
      have : j = 0 := by simp only at hj; omega
      subst this; cases ho; decide +kernel
  · intro a ha o ho
    cases ha
    simp only [List.mem_cons, List.not_mem_nil, or_false] at ho
    rcases ho with rfl | rfl <;> decide +kernel
  · intro i p hp hi
    match i, hp, hi with
    | 0, _, hi => simp at hi
    | 1, hp, _ => cases hp; rfl
    | i + 2, hp, _ => simp at hp

end Verif.Tools
