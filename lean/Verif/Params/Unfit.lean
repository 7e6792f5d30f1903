import Verif.Params.Props

/-!
# C14 and C17 in all cases: numbers that do not fit
-/

namespace Verif

namespace Spec

/-- An element of a page range expression with a number that does not fit `size_t` -/
inductive TooLarge : Bytes → Prop where
  | page {ds} : Digits ds → sizeMax < digitsVal ds → TooLarge ds
  | first {d1 d2} : Digits d1 → sizeMax < digitsVal d1 → (d2 = [] ∨ Digits d2) → TooLarge (d1 ++ 45 :: d2)
  | last {d1 d2} : Digits d1 → Digits d2 → sizeMax < digitsVal d2 → TooLarge (d1 ++ 45 :: d2)

/-- The string, read from the left, is a page range expression up to an element with a number that does not fit. What comes after it does not matter. -/
def LargeFirst (s : Bytes) : Prop :=
  ∃ (good : List Bytes) (rs : List (Nat × Nat)) (large : Bytes) (rest : List Bytes), All2 RangeItem good rs ∧ AscendingRanges rs ∧ TooLarge large ∧
    (∀ x ∈ rest, (44 : UInt8) ∉ x) ∧ s = [44].intercalate (good ++ large :: rest)

end Spec

open Spec

theorem tooLarge_no_comma {s : Bytes} (h : TooLarge s) : (44 : UInt8) ∉ s := by
  have nd : ∀ {ds : Bytes}, Digits ds → (44 : UInt8) ∉ ds := by
    intro ds hn hm
    have := hn.2 44 hm
    revert this; decide
  cases h with
  | page h => exact nd h
  | first h1 _ h2 =>
    rcases h2 with rfl | h2
    · simp [nd h1]
    · simp [nd h1, nd h2]
  | last h1 h2 => simp [nd h1, nd h2]

theorem tooLarge_throws {s : Bytes} (h : TooLarge s) (prev : Nat) (acc : List (Nat × Nat)) (rest : List Bytes) :
    parseRanges prev acc (s :: rest) = .throws .outOfRange := by
  have large : ∀ {ds : Bytes}, Digits ds → sizeMax < digitsVal ds → stoul ds = .throws .outOfRange := by
    intro ds hd hl
    rcases stoul_number hd with ⟨h1, _⟩ | ⟨_, h1⟩
    · omega
    · exact h1
  rw [parseRanges]
  cases h with
  | page h1 h2 =>
    rw [matchRange_single.mpr ⟨rfl, h1⟩]
    simp only [large h1 h2, Outcome.bind_throws]
  | @first d1 d2 h1 h2 h3 =>
    rw [matchRange_range.mpr ⟨rfl, h1, by rcases h3 with rfl | h3; · simp
                                          · exact h3.2⟩]
    simp only [large h1 h2, Outcome.bind_throws]
  | @last d1 d2 h1 h2 h3 =>
    rw [matchRange_range.mpr ⟨rfl, h1, h2.2⟩]
    simp only [rangeTo, if_neg h2.1, large h2 h3, Outcome.bind_throws]
    rcases stoul_number h1 with ⟨_, h4⟩ | ⟨_, h4⟩ <;> rw [h4] <;> rfl

theorem throws_tooLarge {s : Bytes} {prev : Nat} {acc : List (Nat × Nat)} {rest : List Bytes} (hn : ∀ r, ¬ RangeItem s r) {e : Exn}
    (h : parseRanges prev acc (s :: rest) = .throws e) : TooLarge s := by
  rw [parseRanges] at h
  cases hm : matchRange s with
  | none => rw [hm] at h; cases h
  | single ds =>
    obtain ⟨rfl, hd⟩ := matchRange_single.mp hm
    rcases stoul_number hd with ⟨h1, h2⟩ | ⟨h1, h2⟩
    · exact absurd (.page ⟨hd, rfl, h1⟩) (hn _)
    · exact .page hd h1
  | range d1 d2 =>
    obtain ⟨rfl, h1, h2⟩ := matchRange_range.mp hm
    rcases stoul_number h1 with ⟨h3, h4⟩ | ⟨h3, h4⟩
    · rcases rangeTo_cases h2 with ⟨rfl, h5⟩ | ⟨h5, h6, h7⟩ | ⟨h5, h6, h7⟩
      · exact absurd (.openEnd ⟨h1, rfl, h3⟩) (hn _)
      · by_cases hle : digitsVal d1 ≤ digitsVal d2
        · exact absurd (.fromTo ⟨h1, rfl, h3⟩ ⟨h5, rfl, h6⟩ hle) (hn _)
        · rw [hm] at h
          simp only [h4, h7, Outcome.bind_ok] at h
          rw [if_pos (.inl (by omega))] at h
          cases h
      · exact .last h1 h5 h6
    · refine .first h1 h3 ?_
      by_cases he : d2 = []
      · exact .inl he
      · exact .inr ⟨he, h2⟩

theorem parseRanges_throws (items : List Bytes) (prev : Nat) (acc : List (Nat × Nat)) (e : Exn) :
    parseRanges prev acc items = .throws e ↔ e = .outOfRange ∧ ∃ good rs large rest, items = good ++ large :: rest ∧ All2 RangeItem good rs ∧
      AscFrom prev rs ∧ TooLarge large := by
  induction items generalizing prev acc with
  | nil => simp [parseRanges]
  | cons s rest ih =>
    rcases parse_step prev acc s rest with ⟨r, h1, h2, h3, h4⟩ | ⟨h1, h4⟩ | ⟨h1, h4, h5⟩
    · have hnl : ¬ TooLarge s := by
        intro hl
        have := tooLarge_throws hl 0 [] []
        rcases parse_step 0 [] s [] with ⟨r', _, _, _, h8⟩ | ⟨h8, _⟩ | ⟨h8, _⟩
        · rw [this] at h8
          split at h8
          · simp [parseRanges] at h8
          · cases h8
        · exact h8 _ h1
        · exact h8 _ h1
      rw [h4]
      by_cases hp : prev < r.1
      · rw [if_pos hp, ih]
        constructor
        · rintro ⟨rfl, good, rs, large, rest', rfl, g1, g2, g3⟩
          exact ⟨rfl, s :: good, r :: rs, large, rest', rfl, .cons h1 g1, ⟨hp, h3, g2⟩, g3⟩
        · rintro ⟨rfl, good, rs, large, rest', g0, g1, g2, g3⟩
          cases g1 with
          | nil =>
            simp only [List.nil_append, List.cons.injEq] at g0
            rw [g0.1] at hnl
            exact absurd g3 hnl
          | @cons _ _ good rs ga gb =>
            simp only [List.cons_append, List.cons.injEq] at g0
            obtain ⟨rfl, rfl⟩ := g0
            rw [h2 _ ga] at g2
            exact ⟨rfl, good, rs, large, rest', rfl, gb, g2.2.2, g3⟩
      · rw [if_neg hp]
        constructor
        · intro h; cases h
        · rintro ⟨rfl, good, rs, large, rest', g0, g1, g2, g3⟩
          cases g1 with
          | nil =>
            simp only [List.nil_append, List.cons.injEq] at g0
            rw [g0.1] at hnl
            exact absurd g3 hnl
          | @cons _ _ good rs ga gb =>
            simp only [List.cons_append, List.cons.injEq] at g0
            obtain ⟨rfl, rfl⟩ := g0
            rw [h2 _ ga] at g2
            exact absurd g2.1 hp
    · constructor
      · intro h; rw [h4] at h; cases h
      · rintro ⟨rfl, good, rs, large, rest', g0, g1, g2, g3⟩
        cases g1 with
        | nil =>
          simp only [List.nil_append, List.cons.injEq] at g0
          rw [← g0.1] at g3
          exact tooLarge_throws g3 _ _ _
        | cons ga gb =>
          simp only [List.cons_append, List.cons.injEq] at g0
          rw [← g0.1] at ga
          exact absurd ga (h1 _)
    · constructor
      · intro h
        have hl := throws_tooLarge h1 h
        rw [h4] at h; cases h
        exact ⟨rfl, [], [], s, rest, rfl, .nil, trivial, hl⟩
      · rintro ⟨rfl, _⟩
        exact h4

/-- C14 in all cases: the exception is thrown exactly for strings that have a number that does not fit before anything else is wrong. All
others give the ranges that they denote, or the empty list if they denote none. -/
theorem C14_exact (s : Bytes) :
    (∀ e, parsePageRange s = .throws e ↔ e = .outOfRange ∧ LargeFirst s) ∧
    (∀ rs, rs ≠ [] → (parsePageRange s = .ok rs ↔ DenotesRanges s rs)) ∧
    (parsePageRange s = .ok [] ↔ ¬ LargeFirst s ∧ ∀ rs, ¬ DenotesRanges s rs) := by
  have h1 : ∀ e, parsePageRange s = .throws e ↔ e = .outOfRange ∧ LargeFirst s := by
    intro e
    rw [parsePageRange, parseRanges_throws]
    refine and_congr_right fun _ => ⟨?_, ?_⟩
    · rintro ⟨good, rs, large, rest, g0, g1, g2, g3⟩
      refine ⟨good, rs, large, rest, g1, (ascending_iff rs).mpr g2, g3, ?_, ?_⟩
      · intro x hx
        exact (Text.splitString_pieces 44 s).1 x (by rw [g0]; simp [hx])
      · rw [← g0, ← joinString_eq_intercalate, Text.joinString_split]
    · rintro ⟨good, rs, large, rest, g1, g2, g3, g4, rfl⟩
      refine ⟨good, rs, large, rest, ?_, g1, (ascending_iff rs).mp g2, g3⟩
      rw [← joinString_eq_intercalate, Text.splitString_join 44 _ (by simp)]
      intro x hx
      simp only [List.mem_append, List.mem_cons] at hx
      rcases hx with hx | rfl | hx
      · obtain ⟨r, _, hr⟩ := all2_mem_left g1 x hx
        exact rangeItem_no_comma hr
      · exact tooLarge_no_comma g3
      · exact g4 x hx
  obtain ⟨p1, _, p3⟩ := C14_page_ranges_partial s
  have ne : ∀ rs, DenotesRanges s rs → rs ≠ [] := by
    rintro rs ⟨items, hi, ha, _⟩ rfl
    cases ha
    exact hi rfl
  refine ⟨h1, p1, fun h => ⟨fun hl => ?_, fun rs hd => ?_⟩, fun ⟨hl, hd⟩ => ?_⟩
  · rw [(h1 .outOfRange).mpr ⟨rfl, hl⟩] at h; cases h
  · rw [(p1 rs (ne rs hd)).mpr hd] at h; cases h
    exact ne _ hd rfl
  · rcases p3 with ⟨rs, h⟩ | h
    · by_cases hr : rs = []
      · rw [h, hr]
      · exact absurd ((p1 rs hr).mp h) (hd rs)
    · exact absurd ((h1 _).mp h).2 hl

/-- C14 in all cases, for the caller -/
theorem C14_set_exact (p : Params) (s : Bytes) :
    (∀ e, p.setPageRange s = .throws e ↔ e = .outOfRange ∧ LargeFirst s) ∧
    (∀ p', p.setPageRange s = .ok (p', true) ↔ ∃ rs, DenotesRanges s rs ∧ p' = { p with pageRangeList := rs }) ∧
    (∀ p', p.setPageRange s = .ok (p', false) ↔ (¬ LargeFirst s ∧ ∀ rs, ¬ DenotesRanges s rs) ∧ p' = { p with pageRangeList := [] }) := by
  obtain ⟨h1, h2, h3⟩ := C14_exact s
  refine ⟨fun e => ?_, (C14_set_page_range_partial p s).1, fun p' => ?_⟩
  · rw [← h1 e]
    unfold Params.setPageRange
    cases parsePageRange s <;> simp
  · rw [← h3]
    unfold Params.setPageRange
    cases hq : parsePageRange s with
    | ok l =>
      simp only [Outcome.bind_ok, Outcome.pure_eq, Outcome.ok.injEq, Prod.mk.injEq]
      constructor
      · rintro ⟨rfl, hl⟩
        have : l = [] := by simpa using hl
        subst this
        exact ⟨rfl, rfl⟩
      · rintro ⟨rfl, rfl⟩
        exact ⟨rfl, rfl⟩
    | throws e => simp
    | ub => simp
    | hang => simp

/-- A good element, one too large, and something that is none -/
example : LargeFirst (ascii "1-3,18446744073709551616-,x") ∧ parsePageRange (ascii "1-3,18446744073709551616-,x") = .throws .outOfRange ∧
    parsePageRange (ascii "x,18446744073709551616") = .ok [] ∧ ¬ LargeFirst (ascii "x,18446744073709551616") := by
  have h1 : parsePageRange (ascii "1-3,18446744073709551616-,x") = .throws .outOfRange := by decide +kernel
  have h2 : parsePageRange (ascii "x,18446744073709551616") = .ok [] := by decide +kernel
  exact ⟨(((C14_exact _).1 _).mp h1).2, h1, h2, ((C14_exact _).2.2.mp h2).1⟩

/-! ## C17 -/

namespace Spec

/-- The numbers of a size, before and after the point, all fit `unsigned long`. -/
def SizeFits (i f : Bytes) : Prop := digitsVal i ≤ sizeMax ∧ digitsVal f ≤ sizeMax

instance (i f : Bytes) : Decidable (SizeFits i f) := inferInstanceAs (Decidable (_ ∧ _))

end Spec

theorem fromString_unfit {s i f : Bytes} (h : DecimalText s i f) (hu : ¬ SizeFits i f) : fromString s = .throws .outOfRange := by
  have no46 : ∀ {d : Bytes}, Digits d → (46 : UInt8) ∉ d := fun h => digits_no h 46 (by decide)
  cases h with
  | whole h =>
    have hd : ∀ a ∈ s, decide (a ≠ 46) = true := by
      intro a ha; simp; rintro rfl; exact no46 h ha
    have e1 := takeWhile_all (r := []) hd (by simp)
    rw [List.append_nil] at e1
    unfold fromString
    rcases stoul_number h with ⟨h1, _⟩ | ⟨_, h1⟩
    · exact absurd ⟨h1, by decide⟩ hu
    · simp only [e1, h1, Outcome.bind_throws]
  | frac hi hf =>
    have hd : ∀ a ∈ i, decide (a ≠ 46) = true := by
      intro a ha; simp; rintro rfl; exact no46 hi ha
    have e1 := takeWhile_all (r := 46 :: f) hd (by simp)
    have e2 := dropWhile_all (r := 46 :: f) hd (by simp)
    unfold fromString
    rcases stoul_number hi with ⟨h1, h2⟩ | ⟨_, h2⟩
    · rcases stoul_number hf with ⟨h3, _⟩ | ⟨_, h4⟩
      · exact absurd ⟨h1, h3⟩ hu
      · simp only [e1, e2, h2, h4, Outcome.bind_ok, Outcome.bind_throws]
    · simp only [e1, h2, Outcome.bind_throws]

/-- C17 in all cases: a name whose four numbers fit is stored with a relative error of at most 2^-50 (other numbers in the name do not matter), one in
which one of them does not fit ends with an exception after the name was stored, and everything else is refused without any change. -/
theorem C17_exact (p : Paper) (s : Bytes) :
    (∀ wi wf hi hf unit, PaperName s wi wf hi hf unit → SizeFits wi wf → SizeFits hi hf → ∃ w h, IsAbout w wi wf ∧ IsAbout h hi hf ∧
      setPaperSize p s = ⟨.ok true, ⟨s, if unit = ascii "in" then .Inches else .Millimeters, w, h⟩⟩) ∧
    (∀ wi wf hi hf unit, PaperName s wi wf hi hf unit → ¬ (SizeFits wi wf ∧ SizeFits hi hf) →
      (setPaperSize p s).ret = .throws .outOfRange ∧ (setPaperSize p s).paper.name = s ∧ (setPaperSize p s).paper.units = p.units ∧
        (setPaperSize p s).paper.h = p.h) ∧
    ((¬ ∃ wi wf hi hf unit, PaperName s wi wf hi hf unit) → setPaperSize p s = ⟨.ok false, p⟩) := by
  have about : ∀ {x i f : Bytes}, DecimalText x i f → IsAbout (decimalDouble i f) i f := by
    intro x i f hx
    refine ⟨decimalDouble_near i f, decimalDouble_short ?_⟩
    cases hx with
    | whole h => simp
    | frac _ h => exact h.2
  refine ⟨?_, ?_, ?_⟩
  · rintro wi wf hi hf' unit ⟨name, w, h, h1, h2, hw, hh, hu, rfl⟩ hw' hh'
    unfold setPaperSize
    rw [matchPaper_complete h1 h2 ((matchNumber_iff _).mpr ⟨_, _, hw⟩) ((matchNumber_iff _).mpr ⟨_, _, hh⟩) hu]
    simp only [fromString_spec hw hw'.1 hw'.2, fromString_spec hh hh'.1 hh'.2]
    refine ⟨_, _, about hw, about hh, ?_⟩
    split <;> rfl
  · rintro wi wf hi hf' unit ⟨name, w, h, h1, h2, hw, hh, hu, rfl⟩ hn
    unfold setPaperSize
    rw [matchPaper_complete h1 h2 ((matchNumber_iff _).mpr ⟨_, _, hw⟩) ((matchNumber_iff _).mpr ⟨_, _, hh⟩) hu]
    by_cases hw' : SizeFits wi wf
    · have hh' : ¬ SizeFits hi hf' := fun hh' => hn ⟨hw', hh'⟩
      simp only [fromString_spec hw hw'.1 hw'.2, fromString_unfit hh hh']
      exact ⟨trivial, trivial, trivial, trivial⟩
    · simp only [fromString_unfit hw hw']
      exact ⟨trivial, trivial, trivial, trivial⟩
  · intro hno
    unfold setPaperSize
    cases hm : matchPaper s with
    | none => rfl
    | some m =>
      obtain ⟨m1, m3, m5⟩ := m
      obtain ⟨name, h1, h2, h3, h4, h5, h6⟩ := matchPaper_sound hm
      obtain ⟨wi, wf, hw⟩ := (matchNumber_iff m1).mp h3
      obtain ⟨hi, hf', hh⟩ := (matchNumber_iff m3).mp h4
      exact absurd ⟨wi, wf, hi, hf', m5, name, m1, m3, h1, h2, hw, hh, h5, h6⟩ hno

/-- A large number in the name does no harm, one in the decimals does; the width has been changed then, but not the height and the unit. -/
example : setPaperSize {} (ascii "a99999999999999999999_2x3mm") = ⟨.ok true, ⟨ascii "a99999999999999999999_2x3mm", .Millimeters, 2, 3⟩⟩ ∧
    setPaperSize {} (ascii "a_2x3.99999999999999999999in") = ⟨.throws .outOfRange, ⟨ascii "a_2x3.99999999999999999999in", .Millimeters, 2, 297⟩⟩ := by
  decide +kernel

end Verif
