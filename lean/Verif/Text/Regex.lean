import Verif.Core.Bytes

/-!
# Regular expressions

What `std::regex_match` decides (ECMAScript grammar, [re.grammar]), for the part of the grammar that the code uses: single characters, classes, groups,
alternatives and the quantifiers `* + ? {n}`. An expression is read from its text. `Matches` has every way in which an expression can match a whole text, with
what its groups then hold; `std::regex_match` takes one of them. It is not modelled which one: where it is used, all ways give the same groups. That matching may
run out of stack for very long texts (libstdc++ recurses) is not modelled either.
-/

namespace Verif.Regex

/-- An expression. -/
inductive Re where
  | empty
  /-- a character in (or, with `neg`, not in) one of the ranges -/
  | set (neg : Bool) (ranges : List (UInt8 × UInt8))
  | seq (a b : Re)
  | alt (a b : Re)
  | star (a : Re)
  | group (no : Nat) (a : Re)
  deriving DecidableEq, Repr

/-- Whether a character is in a set. -/
def inSet (neg : Bool) (ranges : List (UInt8 × UInt8)) (b : UInt8) : Bool := ranges.any (fun r => r.1 ≤ b && b ≤ r.2) != neg

/-- The ways to match a whole text, with the groups in the order in which they are opened. -/
inductive Matches : Re → Bytes → List (Nat × Bytes) → Prop where
  | empty : Matches .empty [] []
  | set {neg ranges b} (h : inSet neg ranges b = true) : Matches (.set neg ranges) [b] []
  | seq {a b s t cs ds} (ha : Matches a s cs) (hb : Matches b t ds) : Matches (.seq a b) (s ++ t) (cs ++ ds)
  | left {a b s cs} (h : Matches a s cs) : Matches (.alt a b) s cs
  | right {a b s cs} (h : Matches b s cs) : Matches (.alt a b) s cs
  | none {a} : Matches (.star a) [] []
  | more {a s t cs ds} (ha : Matches a s cs) (hb : Matches (.star a) t ds) : Matches (.star a) (s ++ t) (cs ++ ds)
  | group {a s cs} (no : Nat) (h : Matches a s cs) : Matches (.group no a) s ((no, s) :: cs)

/-- `match[no]` as a string: what the group held last, and nothing if it took no part. -/
def groupOf (cs : List (Nat × Bytes)) (no : Nat) : Bytes := ((cs.filter (fun c => c.1 == no)).getLast?.map Prod.snd).getD []

/-! ## Reading an expression -/

/-- The ranges of a class and what follows its `]`; a `-` at the end is a character. -/
def readClass : Bytes → Option (List (UInt8 × UInt8) × Bytes)
  | [] => none
  | 93 :: r => some ([], r)
  | a :: 45 :: b :: r =>
    if b = 93 then some ([(a, a), (45, 45)], r)
    else (readClass r).map (fun x => ((a, b) :: x.1, x.2))
  | a :: r => (readClass r).map (fun x => ((a, a) :: x.1, x.2))

/-- One after the other. -/
def inRow : List Re → Re
  | [] => .empty
  | [a] => a
  | a :: b :: r => .seq a (inRow (b :: r))

/-- What is open: the number of the group, the alternatives so far, and the present one, last part first. -/
structure Level where
  no : Nat
  before : Option Re
  parts : List Re

/-- What was read at a level. -/
def Level.closed (l : Level) : Re :=
  match l.before with
  | none => inRow l.parts.reverse
  | some a => .alt a (inRow l.parts.reverse)

/-- Reads an expression; `n` is the number of groups so far. -/
def readFrom : Nat → Nat → List Level → Bytes → Option Re
  | _, _, [l], [] => some l.closed
  | fuel + 1, n, l :: up, c :: r =>
    if c = 40 then readFrom fuel (n + 1) (⟨n + 1, none, []⟩ :: l :: up) r
    else if c = 41 then
      match up with
      | p :: up' => readFrom fuel n ({ p with parts := .group l.no l.closed :: p.parts } :: up') r
      | [] => none
    else if c = 124 then readFrom fuel n (⟨l.no, some l.closed, []⟩ :: up) r
    else if c = 91 then
      match (if r.head? = some 94 then readClass r.tail else readClass r) with
      | some (ranges, r') => readFrom fuel n ({ l with parts := .set (decide (r.head? = some 94)) ranges :: l.parts } :: up) r'
      | none => none
    else if c = 42 ∨ c = 43 ∨ c = 63 ∨ c = 123 then
      match l.parts with
      | a :: parts =>
        if c = 42 then readFrom fuel n ({ l with parts := .star a :: parts } :: up) r
        else if c = 43 then readFrom fuel n ({ l with parts := .seq a (.star a) :: parts } :: up) r
        else if c = 63 then readFrom fuel n ({ l with parts := .alt a .empty :: parts } :: up) r
        else match r with
          | d :: 125 :: r' =>
            if 48 ≤ d ∧ d ≤ 57 then readFrom fuel n ({ l with parts := inRow (List.replicate (d.toNat - 48) a) :: parts } :: up) r' else none
          | _ => none
      | [] => none
    else readFrom fuel n ({ l with parts := .set false [(c, c)] :: l.parts } :: up) r
  | _, _, _, _ => none

/-- Reads an expression between `^` and `$`, as all that the code has. With `std::regex_match` these hold by themselves. -/
def read (text : Bytes) : Option Re :=
  if text.head? = some 94 ∧ text.getLast? = some 36 then readFrom text.length 0 [⟨0, none, []⟩] text.tail.dropLast else none

/-- `std::regex_match(s, match, std::regex(expression))` can give these groups. -/
def Gives (expression : String) (s : Bytes) (cs : List (Nat × Bytes)) : Prop :=
  ∃ re, read (ascii expression) = some re ∧ Matches re s cs

/-! ## Matching, part by part -/

theorem matches_empty {s : Bytes} {cs} : Matches .empty s cs ↔ s = [] ∧ cs = [] := by
  constructor
  · intro h; cases h; exact ⟨rfl, rfl⟩
  · rintro ⟨rfl, rfl⟩; exact .empty

theorem matches_set {neg rs} {s : Bytes} {cs} : Matches (.set neg rs) s cs ↔ ∃ b, inSet neg rs b = true ∧ s = [b] ∧ cs = [] := by
  constructor
  · intro h; cases h with | set h => exact ⟨_, h, rfl, rfl⟩
  · rintro ⟨b, h, rfl, rfl⟩; exact .set h

theorem matches_seq {a b} {s : Bytes} {cs} :
    Matches (.seq a b) s cs ↔ ∃ s1 s2 c1 c2, Matches a s1 c1 ∧ Matches b s2 c2 ∧ s = s1 ++ s2 ∧ cs = c1 ++ c2 := by
  constructor
  · intro h; cases h with | seq h1 h2 => exact ⟨_, _, _, _, h1, h2, rfl, rfl⟩
  · rintro ⟨s1, s2, c1, c2, h1, h2, rfl, rfl⟩; exact .seq h1 h2

theorem matches_alt {a b} {s : Bytes} {cs} : Matches (.alt a b) s cs ↔ Matches a s cs ∨ Matches b s cs := by
  constructor
  · intro h
    cases h with
    | left h => exact .inl h
    | right h => exact .inr h
  · rintro (h | h)
    · exact .left h
    · exact .right h

theorem matches_group {no a} {s : Bytes} {cs} : Matches (.group no a) s cs ↔ ∃ ds, Matches a s ds ∧ cs = (no, s) :: ds := by
  constructor
  · intro h; cases h with | group _ h => exact ⟨_, h, rfl⟩
  · rintro ⟨ds, h, rfl⟩; exact .group _ h

theorem matches_star_set {neg rs} {s : Bytes} {cs} : Matches (.star (.set neg rs)) s cs ↔ cs = [] ∧ ∀ b ∈ s, inSet neg rs b = true := by
  constructor
  · intro h
    generalize hr : Re.star (.set neg rs) = r at h
    induction h with
    | empty => cases hr
    | set _ => cases hr
    | seq _ _ => cases hr
    | left _ => cases hr
    | right _ => cases hr
    | none => exact ⟨rfl, by simp⟩
    | more ha hb iha ihb =>
      cases hr
      obtain ⟨b, hb', rfl, rfl⟩ := matches_set.mp ha
      obtain ⟨rfl, h2⟩ := ihb rfl
      refine ⟨rfl, ?_⟩
      intro c hc
      rcases List.mem_cons.mp hc with rfl | hc
      · exact hb'
      · exact h2 c hc
    | group _ _ => cases hr
  · rintro ⟨rfl, h⟩
    induction s with
    | nil => exact .none
    | cons b s ih =>
      have := Matches.more (Matches.set (h b (by simp))) (ih (fun c hc => h c (by simp [hc])))
      simpa using this

theorem matches_plus_set {neg rs} {s : Bytes} {cs} :
    Matches (.seq (.set neg rs) (.star (.set neg rs))) s cs ↔ cs = [] ∧ s ≠ [] ∧ ∀ b ∈ s, inSet neg rs b = true := by
  rw [matches_seq]
  constructor
  · rintro ⟨s1, s2, c1, c2, h1, h2, rfl, rfl⟩
    obtain ⟨b, hb, rfl, rfl⟩ := matches_set.mp h1
    obtain ⟨rfl, h⟩ := matches_star_set.mp h2
    refine ⟨rfl, by simp, ?_⟩
    intro c hc
    rcases List.mem_cons.mp hc with rfl | hc
    · exact hb
    · exact h c hc
  · rintro ⟨rfl, hne, h⟩
    cases s with
    | nil => exact absurd rfl hne
    | cons b s => exact ⟨[b], s, [], [], .set (h b (by simp)), matches_star_set.mpr ⟨rfl, fun c hc => h c (by simp [hc])⟩, rfl, rfl⟩

theorem inSet_one (c b : UInt8) : inSet false [(c, c)] b = true ↔ b = c := by
  simp only [inSet, List.any_cons, List.any_nil, Bool.or_false, bne_iff_ne, ne_eq, Bool.not_eq_false, Bool.and_eq_true, decide_eq_true_eq]
  constructor
  · rintro ⟨h1, h2⟩; exact UInt8.le_antisymm h2 h1
  · rintro rfl; exact ⟨UInt8.le_refl _, UInt8.le_refl _⟩

theorem matches_char {c : UInt8} {s : Bytes} {cs} : Matches (.set false [(c, c)]) s cs ↔ s = [c] ∧ cs = [] := by
  rw [matches_set]
  constructor
  · rintro ⟨b, hb, rfl, rfl⟩; rw [(inSet_one c b).mp hb]; exact ⟨rfl, rfl⟩
  · rintro ⟨rfl, rfl⟩; exact ⟨c, (inSet_one c c).mpr rfl, rfl, rfl⟩

end Verif.Regex
