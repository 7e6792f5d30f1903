import Verif.Text.Regex
import Verif.Params.PaperLemmas
import Verif.Client.CommandProps
import Verif.Client.InfoProps

/-!
# The regular expressions of the code: property C105

The models of page ranges, paper sizes, colors and pairs of name and value say directly which texts are accepted. Here this is compared with the regular
expressions in the code, read from their text and with the meaning that ECMAScript gives them (`Verif.Text.Regex`).
-/

namespace Verif.Client

open Regex

/-! ## Specification -/

namespace Spec

/-- `std::regex_match(s, match, …)` succeeds. -/
def Accepts (expression : String) (s : Bytes) : Prop := ∃ cs, Gives expression s cs

/-- `std::stoul(t, nullptr, 16)` of two hexadecimal digits. -/
def HexText (t : Bytes) (n : Nat) : Prop := ∃ h l : UInt8, ∃ h' l' : Nat, t = [h, l] ∧ hex h = some h' ∧ hex l = some l' ∧ n = 16 * h' + l'

/-- The expressions, printparameters.cpp 193, 194, 250 and ippclient.cpp 26, 333 -/
def single : String := "^([0-9]+)$"
def range : String := "^([0-9]+)-([0-9]*)$"
def nameRegex : String := "^[0-9a-z_-]+_([0-9]+([.][0-9]+)?)x([0-9]+([.][0-9]+)?)(mm|in)$"
def colorRegex : String := "^#([0-9a-fA-F]{2})([0-9a-fA-F]{2})([0-9a-fA-F]{2})$"
def kvRegex : String := "^([^=]*)=([^=]*)$"

end Spec

open Spec

/-! ## The expressions, read -/

def digit : Re := .set false [(48, 57)]
def digits : Re := .seq digit (.star digit)
def char (c : UInt8) : Re := .set false [(c, c)]
def number (inner : Nat) : Re := .seq digits (.alt (.group inner (.seq (char 46) digits)) .empty)
def nameSet : Re := .set false [(48, 57), (97, 122), (95, 95), (45, 45)]
def hexSet : Re := .set false [(48, 57), (97, 102), (65, 70)]
def notEq : Re := .set true [(61, 61)]

theorem read_single : read (ascii Spec.single) = some (.group 1 digits) := by decide +kernel

theorem read_range : read (ascii Spec.range) = some (.seq (.group 1 digits) (.seq (char 45) (.group 2 (.star digit)))) := by decide +kernel

theorem read_paper : read (ascii nameRegex) = some (.seq (.seq nameSet (.star nameSet)) (.seq (char 95) (.seq (.group 1 (number 2))
    (.seq (char 120) (.seq (.group 3 (number 4)) (.group 5 (.alt (.seq (char 109) (char 109)) (.seq (char 105) (char 110))))))))) := by decide +kernel

theorem read_color : read (ascii colorRegex) = some (.seq (char 35) (.seq (.group 1 (.seq hexSet hexSet)) (.seq (.group 2 (.seq hexSet hexSet))
    (.group 3 (.seq hexSet hexSet))))) := by decide +kernel

theorem read_kv : read (ascii kvRegex) = some (.seq (.group 1 (.star notEq)) (.seq (char 61) (.group 2 (.star notEq)))) := by decide +kernel

theorem gives_iff {e : String} {re : Re} (h : read (ascii e) = some re) (s : Bytes) (cs) : Gives e s cs ↔ Matches re s cs := by
  constructor
  · rintro ⟨re', h', hm⟩; rw [h] at h'; cases h'; exact hm
  · intro hm; exact ⟨re, h, hm⟩

/-! ## Sets -/

theorem inSet_digit (b : UInt8) : inSet false [(48, 57)] b = true ↔ isDigit b = true := by
  simp [inSet, isDigit]

theorem inSet_name (b : UInt8) : inSet false [(48, 57), (97, 122), (95, 95), (45, 45)] b = true ↔ NameLetter b := by
  have h := inSet_one 95 b
  have h' := inSet_one 45 b
  simp only [inSet, List.any_cons, List.any_nil, Bool.or_false, bne_iff_ne, ne_eq, Bool.not_eq_false] at h h' ⊢
  simp only [Bool.or_eq_true, h, h']
  simp [NameLetter, isDigit]

theorem inSet_notEq (b : UInt8) : inSet true [(61, 61)] b = true ↔ b ≠ 61 := by
  have h := inSet_one 61 b
  simp only [inSet, List.any_cons, List.any_nil, Bool.or_false, bne_iff_ne, ne_eq, Bool.not_eq_false] at h ⊢
  rw [h]

theorem inSet_hex (b : UInt8) : inSet false [(48, 57), (97, 102), (65, 70)] b = true ↔ ∃ n, hex b = some n := by
  have h : ∀ b : Fin 256, (inSet false [(48, 57), (97, 102), (65, 70)] (UInt8.ofNat b) = true) = ((hex (UInt8.ofNat b)).isSome = true) := by decide +kernel
  have := h ⟨b.toNat, b.toNat_lt⟩
  simp only [UInt8.ofNat_toNat] at this
  rw [this, Option.isSome_iff_exists]

theorem matches_digits {s : Bytes} {cs} : Matches digits s cs ↔ cs = [] ∧ Digits s := by
  unfold digits digit
  rw [matches_plus_set]
  simp only [inSet_digit, Digits]

theorem matches_number {inner : Nat} {s : Bytes} {cs} :
    Matches (number inner) s cs ↔ ∃ i f, DecimalText s i f ∧ cs = if f = [] then [] else [(inner, 46 :: f)] := by
  unfold number char
  rw [matches_seq]
  constructor
  · rintro ⟨s1, s2, c1, c2, hs1, hs2, rfl, rfl⟩
    obtain ⟨rfl, h1⟩ := matches_digits.mp hs1
    rcases matches_alt.mp hs2 with h2 | h2
    · obtain ⟨ds, h5, rfl⟩ := matches_group.mp h2
      obtain ⟨t1, t2, d1, d2, h3, h4, rfl, rfl⟩ := matches_seq.mp h5
      obtain ⟨rfl, rfl⟩ := matches_char.mp h3
      obtain ⟨rfl, h6⟩ := matches_digits.mp h4
      exact ⟨s1, t2, by simpa using DecimalText.frac h1 h6, by simp [h6.1]⟩
    · obtain ⟨rfl, rfl⟩ := matches_empty.mp h2
      exact ⟨s1, [], by simpa using DecimalText.whole h1, by simp⟩
  · rintro ⟨i, f, h, rfl⟩
    cases h with
    | whole h => exact ⟨s, [], [], [], matches_digits.mpr ⟨rfl, h⟩, .right .empty, by simp, by simp⟩
    | frac h1 h2 =>
      refine ⟨i, 46 :: f, [], [(inner, 46 :: f)], matches_digits.mpr ⟨rfl, h1⟩, ?_, by simp, by simp [h2.1]⟩
      refine .left (matches_group.mpr ⟨[], ?_, rfl⟩)
      exact matches_seq.mpr ⟨[46], f, [], [], matches_char.mpr ⟨rfl, rfl⟩, matches_digits.mpr ⟨rfl, h2⟩, rfl, rfl⟩

/-! ## What the expressions match -/

theorem gives_single {s : Bytes} {cs} : Gives Spec.single s cs ↔ Digits s ∧ cs = [(1, s)] := by
  rw [gives_iff read_single, matches_group]
  simp only [matches_digits]
  constructor
  · rintro ⟨_, ⟨rfl, h⟩, rfl⟩; exact ⟨h, rfl⟩
  · rintro ⟨h, rfl⟩; exact ⟨[], ⟨rfl, h⟩, rfl⟩

theorem gives_range {s : Bytes} {cs} :
    Gives Spec.range s cs ↔ ∃ d1 d2, s = d1 ++ 45 :: d2 ∧ Digits d1 ∧ (∀ b ∈ d2, isDigit b = true) ∧ cs = [(1, d1), (2, d2)] := by
  rw [gives_iff read_range]
  constructor
  · intro h
    obtain ⟨s1, s2, c1, c2, h1, h2, rfl, rfl⟩ := matches_seq.mp h
    obtain ⟨d1, h3, rfl⟩ := matches_group.mp h1
    obtain ⟨rfl, h4⟩ := matches_digits.mp h3
    obtain ⟨t1, t2, e1, e2, h5, h6, rfl, rfl⟩ := matches_seq.mp h2
    obtain ⟨rfl, rfl⟩ := matches_char.mp h5
    obtain ⟨d2, h7, rfl⟩ := matches_group.mp h6
    obtain ⟨rfl, h8⟩ := matches_star_set.mp h7
    exact ⟨s1, t2, by simp, h4, fun b hb => (inSet_digit b).mp (h8 b hb), by simp⟩
  · rintro ⟨d1, d2, rfl, h1, h2, rfl⟩
    refine matches_seq.mpr ⟨d1, 45 :: d2, [(1, d1)], [(2, d2)], matches_group.mpr ⟨[], matches_digits.mpr ⟨rfl, h1⟩, rfl⟩, ?_, rfl, rfl⟩
    refine matches_seq.mpr ⟨[45], d2, [], [(2, d2)], matches_char.mpr ⟨rfl, rfl⟩, matches_group.mpr ⟨[], ?_, rfl⟩, rfl, rfl⟩
    exact matches_star_set.mpr ⟨rfl, fun b hb => (inSet_digit b).mpr (h2 b hb)⟩

/-- The group of the fraction of a number. -/
def fracGroup (no : Nat) (f : Bytes) : List (Nat × Bytes) := if f = [] then [] else [(no, 46 :: f)]

theorem matches_unit {u : Bytes} {cs} :
    Matches (.alt (.seq (char 109) (char 109)) (.seq (char 105) (char 110))) u cs ↔ (u = ascii "mm" ∨ u = ascii "in") ∧ cs = [] := by
  have two : ∀ (a b : UInt8) (u : Bytes) cs, Matches (.seq (char a) (char b)) u cs ↔ u = [a, b] ∧ cs = [] := by
    intro a b u cs
    constructor
    · intro h
      obtain ⟨s1, s2, c1, c2, h1, h2, rfl, rfl⟩ := matches_seq.mp h
      obtain ⟨rfl, rfl⟩ := matches_char.mp h1
      obtain ⟨rfl, rfl⟩ := matches_char.mp h2
      exact ⟨rfl, rfl⟩
    · rintro ⟨rfl, rfl⟩
      exact matches_seq.mpr ⟨[a], [b], [], [], matches_char.mpr ⟨rfl, rfl⟩, matches_char.mpr ⟨rfl, rfl⟩, rfl, rfl⟩
  have e1 : ascii "mm" = [109, 109] := by decide
  have e2 : ascii "in" = [105, 110] := by decide
  rw [matches_alt, two, two, e1, e2]
  constructor
  · rintro (⟨h, rfl⟩ | ⟨h, rfl⟩)
    · exact ⟨.inl h, rfl⟩
    · exact ⟨.inr h, rfl⟩
  · rintro ⟨h | h, rfl⟩
    · exact .inl ⟨h, rfl⟩
    · exact .inr ⟨h, rfl⟩

theorem gives_name {s : Bytes} {cs} :
    Gives nameRegex s cs ↔ ∃ name w wi wf h hi hf u, name ≠ [] ∧ (∀ b ∈ name, NameLetter b) ∧ DecimalText w wi wf ∧ DecimalText h hi hf ∧
      (u = ascii "mm" ∨ u = ascii "in") ∧ s = name ++ [95] ++ w ++ [120] ++ h ++ u ∧
      cs = (1, w) :: fracGroup 2 wf ++ (3, h) :: fracGroup 4 hf ++ [(5, u)] := by
  rw [gives_iff read_paper]
  constructor
  · intro hm
    obtain ⟨name, s2, c1, c2, h1, h2, rfl, rfl⟩ := matches_seq.mp hm
    obtain ⟨rfl, hne, hn⟩ := matches_plus_set.mp h1
    obtain ⟨s3, s4, c3, c4, h3, h4, rfl, rfl⟩ := matches_seq.mp h2
    obtain ⟨rfl, rfl⟩ := matches_char.mp h3
    obtain ⟨w, s6, c5, c6, h5, h6, rfl, rfl⟩ := matches_seq.mp h4
    obtain ⟨d5, h5', rfl⟩ := matches_group.mp h5
    obtain ⟨wi, wf, hw, rfl⟩ := matches_number.mp h5'
    obtain ⟨s7, s8, c7, c8, h7, h8, rfl, rfl⟩ := matches_seq.mp h6
    obtain ⟨rfl, rfl⟩ := matches_char.mp h7
    obtain ⟨h, u, c9, c10, h9, h10, rfl, rfl⟩ := matches_seq.mp h8
    obtain ⟨d9, h9', rfl⟩ := matches_group.mp h9
    obtain ⟨hi, hf, hh, rfl⟩ := matches_number.mp h9'
    obtain ⟨d10, h10', rfl⟩ := matches_group.mp h10
    obtain ⟨hu, rfl⟩ := matches_unit.mp h10'
    exact ⟨name, w, wi, wf, h, hi, hf, u, hne, fun b hb => (inSet_name b).mp (hn b hb), hw, hh, hu, by simp, by simp [fracGroup]⟩
  · rintro ⟨name, w, wi, wf, h, hi, hf, u, hne, hn, hw, hh, hu, rfl, rfl⟩
    have g5 : Matches (.group 5 (.alt (.seq (char 109) (char 109)) (.seq (char 105) (char 110)))) u [(5, u)] :=
      matches_group.mpr ⟨[], matches_unit.mpr ⟨hu, rfl⟩, rfl⟩
    have g3 : Matches (.group 3 (number 4)) h ((3, h) :: fracGroup 4 hf) := matches_group.mpr ⟨_, matches_number.mpr ⟨hi, hf, hh, rfl⟩, rfl⟩
    have g1 : Matches (.group 1 (number 2)) w ((1, w) :: fracGroup 2 wf) := matches_group.mpr ⟨_, matches_number.mpr ⟨wi, wf, hw, rfl⟩, rfl⟩
    have gn : Matches (.seq nameSet (.star nameSet)) name [] := matches_plus_set.mpr ⟨rfl, hne, fun b hb => (inSet_name b).mpr (hn b hb)⟩
    have c : ∀ b : UInt8, Matches (char b) [b] [] := fun b => matches_char.mpr ⟨rfl, rfl⟩
    have := Matches.seq gn (.seq (c 95) (.seq g1 (.seq (c 120) (.seq g3 g5))))
    simpa using this

theorem matches_hexes {s : Bytes} {cs} : Matches (.seq hexSet hexSet) s cs ↔ (∃ n, HexText s n) ∧ cs = [] := by
  constructor
  · intro h
    obtain ⟨s1, s2, c1, c2, h1, h2, rfl, rfl⟩ := matches_seq.mp h
    obtain ⟨a, ha, rfl, rfl⟩ := matches_set.mp h1
    obtain ⟨b, hb, rfl, rfl⟩ := matches_set.mp h2
    obtain ⟨m, hm⟩ := (inSet_hex a).mp ha
    obtain ⟨n, hn⟩ := (inSet_hex b).mp hb
    exact ⟨⟨_, a, b, m, n, rfl, hm, hn, rfl⟩, rfl⟩
  · rintro ⟨⟨_, a, b, m, n, rfl, hm, hn, rfl⟩, rfl⟩
    have := Matches.seq (Matches.set ((inSet_hex a).mpr ⟨m, hm⟩)) (Matches.set ((inSet_hex b).mpr ⟨n, hn⟩))
    simpa [hexSet] using this

theorem gives_color {s : Bytes} {cs} :
    Gives colorRegex s cs ↔ ∃ r g b, (∃ n, HexText r n) ∧ (∃ n, HexText g n) ∧ (∃ n, HexText b n) ∧ s = 35 :: (r ++ (g ++ b)) ∧ cs = [(1, r), (2, g), (3, b)] := by
  rw [gives_iff read_color]
  constructor
  · intro h
    obtain ⟨s1, s2, c1, c2, h1, h2, rfl, rfl⟩ := matches_seq.mp h
    obtain ⟨rfl, rfl⟩ := matches_char.mp h1
    obtain ⟨r, s4, c3, c4, h3, h4, rfl, rfl⟩ := matches_seq.mp h2
    obtain ⟨d3, h3', rfl⟩ := matches_group.mp h3
    obtain ⟨hr, rfl⟩ := matches_hexes.mp h3'
    obtain ⟨g, b, c5, c6, h5, h6, rfl, rfl⟩ := matches_seq.mp h4
    obtain ⟨d5, h5', rfl⟩ := matches_group.mp h5
    obtain ⟨hg, rfl⟩ := matches_hexes.mp h5'
    obtain ⟨d6, h6', rfl⟩ := matches_group.mp h6
    obtain ⟨hb, rfl⟩ := matches_hexes.mp h6'
    exact ⟨r, g, b, hr, hg, hb, by simp, by simp⟩
  · rintro ⟨r, g, b, hr, hg, hb, rfl, rfl⟩
    have gr : ∀ n t, (∃ v, HexText t v) → Matches (.group n (.seq hexSet hexSet)) t [(n, t)] :=
      fun n t ht => matches_group.mpr ⟨[], matches_hexes.mpr ⟨ht, rfl⟩, rfl⟩
    have c : Matches (char 35) [35] [] := matches_char.mpr ⟨rfl, rfl⟩
    have := Matches.seq c (.seq (gr 1 r hr) (.seq (gr 2 g hg) (gr 3 b hb)))
    simpa using this

theorem gives_kv {s : Bytes} {cs} : Gives kvRegex s cs ↔ ∃ k v, s = k ++ 61 :: v ∧ 61 ∉ k ∧ 61 ∉ v ∧ cs = [(1, k), (2, v)] := by
  have hs : ∀ t cs, Matches (.star notEq) t cs ↔ cs = [] ∧ 61 ∉ t := by
    intro t cs
    unfold notEq
    rw [matches_star_set]
    simp only [inSet_notEq]
    constructor
    · rintro ⟨rfl, h⟩; exact ⟨rfl, fun hm => h _ hm rfl⟩
    · rintro ⟨rfl, h⟩; exact ⟨rfl, fun b hb e => h (e ▸ hb)⟩
  rw [gives_iff read_kv]
  constructor
  · intro h
    obtain ⟨k, s2, c1, c2, h1, h2, rfl, rfl⟩ := matches_seq.mp h
    obtain ⟨d1, h1', rfl⟩ := matches_group.mp h1
    obtain ⟨rfl, hk⟩ := (hs _ _).mp h1'
    obtain ⟨s3, v, c3, c4, h3, h4, rfl, rfl⟩ := matches_seq.mp h2
    obtain ⟨rfl, rfl⟩ := matches_char.mp h3
    obtain ⟨d4, h4', rfl⟩ := matches_group.mp h4
    obtain ⟨rfl, hv⟩ := (hs _ _).mp h4'
    exact ⟨k, v, by simp, hk, hv, by simp⟩
  · rintro ⟨k, v, rfl, hk, hv, rfl⟩
    have g : ∀ n t, 61 ∉ t → Matches (.group n (.star notEq)) t [(n, t)] := fun n t ht => matches_group.mpr ⟨[], (hs _ _).mpr ⟨rfl, ht⟩, rfl⟩
    have c : Matches (char 61) [61] [] := matches_char.mpr ⟨rfl, rfl⟩
    have := Matches.seq (g 1 k hk) (.seq c (g 2 v hv))
    simpa using this

theorem groups_name (w wf h hf u : Bytes) :
    groupOf ((1, w) :: fracGroup 2 wf ++ (3, h) :: fracGroup 4 hf ++ [(5, u)]) 1 = w ∧
    groupOf ((1, w) :: fracGroup 2 wf ++ (3, h) :: fracGroup 4 hf ++ [(5, u)]) 3 = h ∧
    groupOf ((1, w) :: fracGroup 2 wf ++ (3, h) :: fracGroup 4 hf ++ [(5, u)]) 5 = u := by
  unfold fracGroup
  by_cases h1 : wf = [] <;> by_cases h2 : hf = [] <;> simp [h1, h2, groupOf]

/-! ## The property -/

/-- C105, page ranges: the two expressions, tried one after the other. -/
theorem C105_pages (s : Bytes) :
    (∀ d, matchRange s = .single d ↔ ∃ cs, Gives Spec.single s cs ∧ groupOf cs 1 = d) ∧
    (∀ d1 d2, matchRange s = .range d1 d2 ↔ ¬ Accepts Spec.single s ∧ ∃ cs, Gives Spec.range s cs ∧ groupOf cs 1 = d1 ∧ groupOf cs 2 = d2) ∧
    (matchRange s = .none ↔ ¬ Accepts Spec.single s ∧ ¬ Accepts Spec.range s) := by
  have h1 : ∀ d, matchRange s = .single d ↔ ∃ cs, Gives Spec.single s cs ∧ groupOf cs 1 = d := by
    intro d
    rw [matchRange_single]
    simp only [gives_single]
    constructor
    · rintro ⟨rfl, h⟩; exact ⟨_, ⟨h, rfl⟩, by simp [groupOf]⟩
    · rintro ⟨_, ⟨h, rfl⟩, rfl⟩; simpa [groupOf] using h
  have h2 : ∀ d1 d2, matchRange s = .range d1 d2 ↔ ∃ cs, Gives Spec.range s cs ∧ groupOf cs 1 = d1 ∧ groupOf cs 2 = d2 := by
    intro d1 d2
    rw [matchRange_range]
    simp only [gives_range]
    constructor
    · rintro ⟨rfl, h1, h2⟩; exact ⟨_, ⟨d1, d2, rfl, h1, h2, rfl⟩, by simp [groupOf]⟩
    · rintro ⟨_, ⟨e1, e2, rfl, h1, h2, rfl⟩, rfl, rfl⟩; exact ⟨by simp [groupOf], by simpa [groupOf] using h1, by simpa [groupOf] using h2⟩
  refine ⟨h1, ?_, ?_⟩
  · intro d1 d2
    constructor
    · intro h
      refine ⟨?_, (h2 d1 d2).mp h⟩
      rintro ⟨cs, hcs⟩
      have := (h1 (groupOf cs 1)).mpr ⟨cs, hcs, rfl⟩
      rw [h] at this
      cases this
    · rintro ⟨_, h⟩; exact (h2 d1 d2).mpr h
  · constructor
    · intro h
      refine ⟨?_, ?_⟩
      · rintro ⟨cs, hcs⟩
        have := (h1 (groupOf cs 1)).mpr ⟨cs, hcs, rfl⟩
        rw [h] at this; cases this
      · rintro ⟨cs, hcs⟩
        have := (h2 (groupOf cs 1) (groupOf cs 2)).mpr ⟨cs, hcs, rfl, rfl⟩
        rw [h] at this; cases this
    · rintro ⟨ha, hb⟩
      cases hm : matchRange s with
      | none => rfl
      | single d => exact absurd (let ⟨cs, h, _⟩ := (h1 d).mp hm; ⟨cs, h⟩) ha
      | range d1 d2 => exact absurd (let ⟨cs, h, _⟩ := (h2 d1 d2).mp hm; ⟨cs, h⟩) hb

/-- C105, paper sizes. -/
theorem C105_paper (s : Bytes) :
    (∀ w h u, matchPaper s = some (w, h, u) ↔ ∃ cs, Gives nameRegex s cs ∧ groupOf cs 1 = w ∧ groupOf cs 3 = h ∧ groupOf cs 5 = u) ∧
    (matchPaper s = none ↔ ¬ Accepts nameRegex s) := by
  have h1 : ∀ w h u, matchPaper s = some (w, h, u) ↔ ∃ cs, Gives nameRegex s cs ∧ groupOf cs 1 = w ∧ groupOf cs 3 = h ∧ groupOf cs 5 = u := by
    intro w h u
    constructor
    · intro hm
      obtain ⟨name, hne, hn, hw, hh, hu, rfl⟩ := matchPaper_sound hm
      obtain ⟨wi, wf, hw⟩ := (matchNumber_iff w).mp hw
      obtain ⟨hi, hf, hh⟩ := (matchNumber_iff h).mp hh
      exact ⟨_, gives_name.mpr ⟨name, w, wi, wf, h, hi, hf, u, hne, hn, hw, hh, hu, rfl, rfl⟩, groups_name ..⟩
    · rintro ⟨cs, hg, e1, e2, e3⟩
      obtain ⟨name, w', wi, wf, h', hi, hf, u', hne, hn, hw, hh, hu, rfl, rfl⟩ := gives_name.mp hg
      obtain ⟨g1, g3, g5⟩ := groups_name w' wf h' hf u'
      rw [g1] at e1; rw [g3] at e2; rw [g5] at e3
      subst e1 e2 e3
      exact matchPaper_complete hne hn ((matchNumber_iff _).mpr ⟨_, _, hw⟩) ((matchNumber_iff _).mpr ⟨_, _, hh⟩) hu
  refine ⟨h1, ?_⟩
  constructor
  · rintro h ⟨cs, hcs⟩
    have := (h1 _ _ _).mpr ⟨cs, hcs, rfl, rfl, rfl⟩
    rw [h] at this; cases this
  · intro h
    cases hm : matchPaper s with
    | none => rfl
    | some x => exact absurd (let ⟨cs, hg, _⟩ := (h1 x.1 x.2.1 x.2.2).mp hm; ⟨cs, hg⟩) h

/-- C105, colors of supplies. -/
theorem C105_colors (s : Bytes) :
    (∀ r g b, rgbOf s = some (r, g, b) ↔ ∃ cs, Gives colorRegex s cs ∧ HexText (groupOf cs 1) r ∧ HexText (groupOf cs 2) g ∧ HexText (groupOf cs 3) b) ∧
    (rgbOf s = none ↔ ¬ Accepts colorRegex s) := by
  have h1 : ∀ r g b, rgbOf s = some (r, g, b) ↔
      ∃ cs, Gives colorRegex s cs ∧ HexText (groupOf cs 1) r ∧ HexText (groupOf cs 2) g ∧ HexText (groupOf cs 3) b := by
    intro r g b
    rw [rgb_iff]
    simp only [gives_color]
    constructor
    · rintro ⟨r1, r0, g1, g0, b1, b0, r1', r0', g1', g0', b1', b0', rfl, e1, e2, e3, e4, e5, e6, rfl, rfl, rfl⟩
      have hr : HexText [r1, r0] (16 * r1' + r0') := ⟨_, _, _, _, rfl, e1, e2, rfl⟩
      have hg : HexText [g1, g0] (16 * g1' + g0') := ⟨_, _, _, _, rfl, e3, e4, rfl⟩
      have hb : HexText [b1, b0] (16 * b1' + b0') := ⟨_, _, _, _, rfl, e5, e6, rfl⟩
      refine ⟨_, ⟨[r1, r0], [g1, g0], [b1, b0], ⟨_, hr⟩, ⟨_, hg⟩, ⟨_, hb⟩, rfl, rfl⟩, ?_, ?_, ?_⟩ <;> simpa [groupOf]
    · rintro ⟨_, ⟨tr, tg, tb, _, _, _, rfl, rfl⟩, hr, hg, hb⟩
      simp only [groupOf] at hr hg hb
      obtain ⟨r1, r0, r1', r0', er, e1, e2, rfl⟩ := hr
      obtain ⟨g1, g0, g1', g0', eg, e3, e4, rfl⟩ := hg
      obtain ⟨b1, b0, b1', b0', eb, e5, e6, rfl⟩ := hb
      simp at er eg eb
      subst er eg eb
      exact ⟨r1, r0, g1, g0, b1, b0, r1', r0', g1', g0', b1', b0', by simp, e1, e2, e3, e4, e5, e6, rfl, rfl, rfl⟩
  refine ⟨h1, ?_⟩
  constructor
  · rintro h ⟨cs, hcs⟩
    obtain ⟨r, g, b, ⟨nr, hr⟩, ⟨ng, hg⟩, ⟨nb, hb⟩, rfl, rfl⟩ := gives_color.mp hcs
    have := (h1 nr ng nb).mpr ⟨_, hcs, by simpa [groupOf] using hr, by simpa [groupOf] using hg, by simpa [groupOf] using hb⟩
    rw [h] at this; cases this
  · intro h
    cases hm : rgbOf s with
    | none => rfl
    | some x => exact absurd (let ⟨cs, hg, _⟩ := (h1 x.1 x.2.1 x.2.2).mp hm; ⟨cs, hg⟩) h

/-- C105, pairs of name and value. -/
theorem C105_pairs (s : Bytes) :
    (∀ k v, keyValue s = some (k, v) ↔ ∃ cs, Gives kvRegex s cs ∧ groupOf cs 1 = k ∧ groupOf cs 2 = v) ∧ (keyValue s = none ↔ ¬ Accepts kvRegex s) := by
  have h1 : ∀ k v, keyValue s = some (k, v) ↔ ∃ cs, Gives kvRegex s cs ∧ groupOf cs 1 = k ∧ groupOf cs 2 = v := by
    intro k v
    rw [keyValue_eq]
    simp only [gives_kv]
    constructor
    · rintro ⟨rfl, hk, hv⟩; exact ⟨_, ⟨k, v, rfl, hk, hv, rfl⟩, by simp [groupOf]⟩
    · rintro ⟨_, ⟨k', v', rfl, hk, hv, rfl⟩, rfl, rfl⟩; exact ⟨by simp [groupOf], by simpa [groupOf] using hk, by simpa [groupOf] using hv⟩
  refine ⟨h1, ?_⟩
  constructor
  · rintro h ⟨cs, hcs⟩
    have := (h1 _ _).mpr ⟨cs, hcs, rfl, rfl⟩
    rw [h] at this; cases this
  · intro h
    cases hm : keyValue s with
    | none => rfl
    | some x => exact absurd (let ⟨cs, hg, _⟩ := (h1 x.1 x.2).mp hm; ⟨cs, hg⟩) h

/-- C105: there is only one way to match, so that it does not matter which one `std::regex_match` takes: the groups that the code uses are the same. -/
theorem C105_one (s : Bytes) (cs cs' : List (Nat × Bytes)) :
    (Gives Spec.single s cs → Gives Spec.single s cs' → groupOf cs 1 = groupOf cs' 1) ∧
    (Gives Spec.range s cs → Gives Spec.range s cs' → groupOf cs 1 = groupOf cs' 1 ∧ groupOf cs 2 = groupOf cs' 2) ∧
    (Gives nameRegex s cs → Gives nameRegex s cs' → groupOf cs 1 = groupOf cs' 1 ∧ groupOf cs 3 = groupOf cs' 3 ∧ groupOf cs 5 = groupOf cs' 5) ∧
    (Gives colorRegex s cs → Gives colorRegex s cs' → groupOf cs 1 = groupOf cs' 1 ∧ groupOf cs 2 = groupOf cs' 2 ∧ groupOf cs 3 = groupOf cs' 3) ∧
    (Gives kvRegex s cs → Gives kvRegex s cs' → groupOf cs 1 = groupOf cs' 1 ∧ groupOf cs 2 = groupOf cs' 2) := by
  have hnot : ∀ {cs}, Gives Spec.range s cs → ¬ Accepts Spec.single s := by
    rintro cs hr ⟨ds, hs⟩
    obtain ⟨hd, rfl⟩ := gives_single.mp hs
    obtain ⟨d1, d2, rfl, _⟩ := gives_range.mp hr
    exact absurd (hd.2 45 (by simp)) (by decide)
  refine ⟨?_, ?_, ?_, ?_, ?_⟩
  · intro h h'
    have e := ((C105_pages s).1 _).mpr ⟨cs, h, rfl⟩
    have e' := ((C105_pages s).1 _).mpr ⟨cs', h', rfl⟩
    rw [e] at e'
    simpa using e'
  · intro h h'
    have e := ((C105_pages s).2.1 _ _).mpr ⟨hnot h, cs, h, rfl, rfl⟩
    have e' := ((C105_pages s).2.1 _ _).mpr ⟨hnot h, cs', h', rfl, rfl⟩
    rw [e] at e'
    simpa using e'
  · intro h h'
    have e := ((C105_paper s).1 _ _ _).mpr ⟨cs, h, rfl, rfl, rfl⟩
    have e' := ((C105_paper s).1 _ _ _).mpr ⟨cs', h', rfl, rfl, rfl⟩
    rw [e] at e'
    simpa using e'
  · intro h h'
    obtain ⟨r, g, b, ⟨_, r1, r0, _, _, rfl, _⟩, ⟨_, g1, g0, _, _, rfl, _⟩, ⟨_, b1, b0, _, _, rfl, _⟩, rfl, rfl⟩ := gives_color.mp h
    obtain ⟨r', g', b', ⟨_, r1', r0', _, _, rfl, _⟩, ⟨_, g1', g0', _, _, rfl, _⟩, ⟨_, b1', b0', _, _, rfl, _⟩, e, rfl⟩ := gives_color.mp h'
    simp at e
    simp [groupOf, e]
  · intro h h'
    have e := ((C105_pairs s).1 _ _).mpr ⟨cs, h, rfl, rfl⟩
    have e' := ((C105_pairs s).1 _ _).mpr ⟨cs', h', rfl, rfl⟩
    rw [e] at e'
    simpa using e'

/-- The expression for paper sizes accepts the size of A4, in one group 210 and in another 297. -/
example : ∃ cs, Gives nameRegex (ascii "iso_a4_210x297mm") cs ∧ groupOf cs 1 = ascii "210" ∧ groupOf cs 3 = ascii "297" :=
  let ⟨cs, h, h1, h3, _⟩ := ((C105_paper _).1 (ascii "210") (ascii "297") (ascii "mm")).mp (by decide +kernel)
  ⟨cs, h, h1, h3⟩

/-- It does not accept a size without a name. -/
example : ¬ Accepts nameRegex (ascii "210x297mm") := ((C105_paper _).2).mp (by decide +kernel)

end Verif.Client
