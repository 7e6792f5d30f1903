import Verif.Params.Pages
import Verif.Params.Spec
import Verif.Text.Lemmas

/-! # Lemmas on page range expressions -/

namespace Verif

theorem mem_takeWhile' {α : Type} {p : α → Bool} {l : List α} {a : α} (h : a ∈ l.takeWhile p) : p a = true := by
  induction l with
  | nil => simp at h
  | cons b l ih =>
    rw [List.takeWhile_cons] at h
    split at h
    · rcases List.mem_cons.mp h with rfl | h
      · assumption
      · exact ih h
    · simp at h

theorem matchRange_single {s ds : Bytes} : matchRange s = .single ds ↔ s = ds ∧ Digits ds := by
  constructor
  · intro h
    simp only [matchRange] at h
    split at h
    · cases h
    · rename_i h1
      split at h
      · rename_i h2
        cases h
        have := List.takeWhile_append_dropWhile (p := isDigit) (l := s)
        rw [h2, List.append_nil] at this
        exact ⟨this.symm, h1, fun b hb => mem_takeWhile' hb⟩
      · split at h <;> cases h
  · rintro ⟨rfl, h1, h2⟩
    have e1 := takeWhile_all (r := []) h2 (by simp)
    have e2 := dropWhile_all (r := []) h2 (by simp)
    rw [List.append_nil] at e1 e2
    simp [matchRange, e1, e2, h1]

theorem matchRange_range {s d1 d2 : Bytes} :
    matchRange s = .range d1 d2 ↔ s = d1 ++ 45 :: d2 ∧ Digits d1 ∧ ∀ b ∈ d2, isDigit b = true := by
  constructor
  · intro h
    simp only [matchRange] at h
    split at h
    · cases h
    · rename_i h1
      split at h
      · cases h
      · rename_i h2
        split at h
        · rename_i h3
          cases h
          refine ⟨?_, ⟨h1, fun b hb => mem_takeWhile' hb⟩, by simpa using h3.2⟩
          have := List.takeWhile_append_dropWhile (p := isDigit) (l := s)
          obtain ⟨c, t, ht⟩ := List.exists_cons_of_ne_nil h2
          rw [ht] at h3 this ⊢
          simp at h3
          rw [← h3.1]; simpa using this.symm
        · cases h
  · rintro ⟨rfl, ⟨h1, h2⟩, h3⟩
    have e1 := takeWhile_all (r := 45 :: d2) h2 (by simp; decide)
    have e2 := dropWhile_all (r := 45 :: d2) h2 (by simp; decide)
    simp [matchRange, e1, e2, h1]
    exact h3

/-- The ranges ascend from after `prev`. -/
def AscFrom : Nat → List (Nat × Nat) → Prop
  | _, [] => True
  | prev, r :: rs => prev < r.1 ∧ r.1 ≤ r.2 ∧ AscFrom r.2 rs

theorem ascFrom_iff (prev : Nat) (rs : List (Nat × Nat)) :
    AscFrom prev rs ↔ rs.Pairwise (fun x y => x.2 < y.1) ∧ ∀ x ∈ rs, prev < x.1 ∧ x.1 ≤ x.2 := by
  induction rs generalizing prev with
  | nil => simp [AscFrom]
  | cons r rs ih =>
    simp only [AscFrom, ih, List.pairwise_cons, List.mem_cons]
    constructor
    · rintro ⟨h1, h2, h3, h4⟩
      refine ⟨⟨fun a ha => (h4 a ha).1, h3⟩, ?_⟩
      rintro x (rfl | hx)
      · exact ⟨h1, h2⟩
      · have := h4 x hx; omega
    · rintro ⟨⟨h1, h2⟩, h3⟩
      refine ⟨(h3 r (by simp)).1, (h3 r (by simp)).2, h2, fun x hx => ⟨h1 x hx, (h3 x (by simp [hx])).2⟩⟩

theorem ascending_iff (rs : List (Nat × Nat)) : AscendingRanges rs ↔ AscFrom 0 rs := by
  rw [ascFrom_iff]; rfl

theorem stoul_number {ds : Bytes} (h : Digits ds) :
    (digitsVal ds ≤ sizeMax ∧ stoul ds = .ok (digitsVal ds)) ∨ (sizeMax < digitsVal ds ∧ stoul ds = .throws .outOfRange) := by
  rw [stoul_all_digits ds h.1 h.2]
  by_cases h2 : digitsVal ds > sizeMax
  · right; simp [h2]
  · left; simp [h2]; omega

/-- What `rangeTo` gives. -/
theorem rangeTo_cases {d2 : Bytes} (h : ∀ b ∈ d2, isDigit b = true) :
    (d2 = [] ∧ rangeTo d2 = .ok sizeMax) ∨ (Digits d2 ∧ digitsVal d2 ≤ sizeMax ∧ rangeTo d2 = .ok (digitsVal d2)) ∨
    (Digits d2 ∧ sizeMax < digitsVal d2 ∧ rangeTo d2 = .throws .outOfRange) := by
  by_cases h2 : d2 = []
  · left; simp [h2, rangeTo]
  · right
    rcases stoul_number ⟨h2, h⟩ with ⟨h3, h4⟩ | ⟨h3, h4⟩
    · left; exact ⟨⟨h2, h⟩, h3, by simp [rangeTo, h2, h4]⟩
    · right; exact ⟨⟨h2, h⟩, h3, by simp [rangeTo, h2, h4]⟩

/-- One element: it denotes at most one range, and then the loop goes on with it if it is after `prev`; else the result is empty or
an exception. -/
theorem parse_step (prev : Nat) (acc : List (Nat × Nat)) (s : Bytes) (rest : List Bytes) :
    (∃ r, RangeItem s r ∧ (∀ r', RangeItem s r' → r' = r) ∧ r.1 ≤ r.2 ∧
      parseRanges prev acc (s :: rest) = if prev < r.1 then parseRanges r.2 (acc ++ [r]) rest else .ok []) ∨
    ((∀ r', ¬ RangeItem s r') ∧ parseRanges prev acc (s :: rest) = .ok []) ∨
    ((∀ r', ¬ RangeItem s r') ∧ parseRanges prev acc (s :: rest) = .throws .outOfRange ∧
      ∃ ds, ds <:+: s ∧ Digits ds ∧ sizeMax < digitsVal ds) := by
  have inv : ∀ r', RangeItem s r' →
      (matchRange s = .single s ∧ Number s r'.1 ∧ r'.2 = r'.1) ∨
      (∃ d1 d2, matchRange s = .range d1 d2 ∧ Number d1 r'.1 ∧ Number d2 r'.2 ∧ r'.1 ≤ r'.2) ∨
      (∃ d1, matchRange s = .range d1 [] ∧ Number d1 r'.1 ∧ r'.2 = sizeMax) := by
    intro r' h
    cases h with
    | page h => left; exact ⟨matchRange_single.mpr ⟨rfl, h.1⟩, h, rfl⟩
    | fromTo h1 h2 h3 => right; left; exact ⟨_, _, matchRange_range.mpr ⟨rfl, h1.1, h2.1.2⟩, h1, h2, h3⟩
    | openEnd h1 => right; right; exact ⟨_, matchRange_range.mpr ⟨rfl, h1.1, by simp⟩, h1, rfl⟩
  rw [parseRanges]
  cases hm : matchRange s with
  | none =>
    right; left
    refine ⟨fun r' hr => ?_, rfl⟩
    rcases inv r' hr with ⟨h, _⟩ | ⟨_, _, h, _⟩ | ⟨_, h, _⟩ <;> rw [hm] at h <;> cases h
  | single ds =>
    obtain ⟨rfl, hd⟩ := matchRange_single.mp hm
    rcases stoul_number hd with ⟨h1, h2⟩ | ⟨h1, h2⟩
    · left
      refine ⟨(digitsVal s, digitsVal s), .page ⟨hd, rfl, h1⟩, ?_, Nat.le_refl _, ?_⟩
      · intro r' hr
        rcases inv r' hr with ⟨h, h4, h5⟩ | ⟨_, _, h, _⟩ | ⟨_, h, _⟩ <;> rw [hm] at h <;> cases h
        ext
        · exact h4.2.1.symm
        · rw [h5]; exact h4.2.1.symm
      · simp only [h2, Outcome.bind_ok, Outcome.pure_eq]
        by_cases hv : digitsVal s ≤ prev
        · rw [if_pos hv, if_neg (by omega)]
        · rw [if_neg hv, if_pos (by omega)]
    · right; right
      refine ⟨fun r' hr => ?_, by simp [h2], s, List.infix_rfl, hd, h1⟩
      rcases inv r' hr with ⟨h, h4, h5⟩ | ⟨_, _, h, _⟩ | ⟨_, h, _⟩ <;> rw [hm] at h <;> cases h
      have := h4.2; omega
  | range d1 d2 =>
    obtain ⟨hs, hd1, hd2⟩ := matchRange_range.mp hm
    have hin1 : d1 <:+: s := ⟨[], 45 :: d2, by simp [hs]⟩
    have hin2 : d2 <:+: s := ⟨d1 ++ [45], [], by simp [hs]⟩
    -- an item has the numbers of the groups
    have inv2 : ∀ r', RangeItem s r' → Number d1 r'.1 ∧
        ((Number d2 r'.2 ∧ r'.1 ≤ r'.2) ∨ (d2 = [] ∧ r'.2 = sizeMax)) := by
      intro r' hr
      rcases inv r' hr with ⟨h, _, _⟩ | ⟨_, _, h, h4, h5, h6⟩ | ⟨_, h, h4, h5⟩ <;> rw [hm] at h <;> cases h
      · exact ⟨h4, .inl ⟨h5, h6⟩⟩
      · exact ⟨h4, .inr ⟨rfl, h5⟩⟩
    rcases stoul_number hd1 with ⟨h1, h2⟩ | ⟨h1, h2⟩
    · rcases rangeTo_cases hd2 with ⟨rfl, h4⟩ | ⟨hD2, h3, h4⟩ | ⟨hD2, h3, h4⟩
      · left
        refine ⟨(digitsVal d1, sizeMax), ?_, ?_, h1, ?_⟩
        · rw [hs]; exact .openEnd ⟨hd1, rfl, h1⟩
        · intro r' hr
          obtain ⟨h5, h6⟩ := inv2 r' hr
          rcases h6 with ⟨h6, _⟩ | ⟨_, h6⟩
          · exact absurd rfl h6.1.1
          · ext
            · exact h5.2.1.symm
            · exact h6
        · simp only [h2, h4, Outcome.bind_ok, Outcome.pure_eq]
          by_cases hv : digitsVal d1 ≤ prev
          · rw [if_pos (by omega), if_neg (by omega)]
          · rw [if_neg (by omega), if_pos (by omega)]
      · by_cases hle : digitsVal d1 ≤ digitsVal d2
        · left
          refine ⟨(digitsVal d1, digitsVal d2), ?_, ?_, hle, ?_⟩
          · rw [hs]; exact .fromTo ⟨hd1, rfl, h1⟩ ⟨hD2, rfl, h3⟩ hle
          · intro r' hr
            obtain ⟨h5, h6⟩ := inv2 r' hr
            rcases h6 with ⟨h6, _⟩ | ⟨h6, _⟩
            · ext
              · exact h5.2.1.symm
              · exact h6.2.1.symm
            · exact absurd h6 hD2.1
          · simp only [h2, h4, Outcome.bind_ok, Outcome.pure_eq]
            by_cases hv : digitsVal d1 ≤ prev
            · rw [if_pos (by omega), if_neg (by omega)]
            · rw [if_neg (by omega), if_pos (by omega)]
        · right; left
          refine ⟨fun r' hr => ?_, ?_⟩
          · obtain ⟨h5, h6⟩ := inv2 r' hr
            rcases h6 with ⟨h6, h7⟩ | ⟨h6, _⟩
            · have := h5.2; have := h6.2; omega
            · exact absurd h6 hD2.1
          · simp only [h2, h4, Outcome.bind_ok, Outcome.pure_eq]
            rw [if_pos (by omega)]
      · right; right
        refine ⟨fun r' hr => ?_, by simp [h2, h4], d2, hin2, hD2, h3⟩
        obtain ⟨h5, h6⟩ := inv2 r' hr
        rcases h6 with ⟨h6, h7⟩ | ⟨h6, _⟩
        · have := h6.2; omega
        · exact absurd h6 hD2.1
    · right; right
      refine ⟨fun r' hr => ?_, by simp [h2], d1, hin1, hd1, h1⟩
      have := (inv2 r' hr).1.2; omega

theorem rangeItem_unique {s : Bytes} {a b : Nat × Nat} (ha : RangeItem s a) (hb : RangeItem s b) : a = b := by
  rcases parse_step 0 [] s [] with ⟨r, _, h2, _⟩ | ⟨h1, _⟩ | ⟨h1, _⟩
  · rw [h2 a ha, h2 b hb]
  · exact absurd ha (h1 a)
  · exact absurd ha (h1 a)

theorem all2_unique {α β : Type} {R : α → β → Prop} (hu : ∀ a b c, R a b → R a c → b = c) {as : List α} {bs cs : List β}
    (h1 : All2 R as bs) (h2 : All2 R as cs) : bs = cs := by
  induction h1 generalizing cs with
  | nil => cases h2; rfl
  | cons hr _ ih =>
    cases h2 with
    | cons hr' h' => rw [hu _ _ _ hr hr', ih h']

/-- The loop: what it returns, and when it throws. -/
theorem parseRanges_spec (items : List Bytes) (prev : Nat) (acc : List (Nat × Nat)) :
    (∃ new, All2 RangeItem items new ∧ AscFrom prev new ∧ parseRanges prev acc items = .ok (acc ++ new)) ∨
    ((¬ ∃ new, All2 RangeItem items new ∧ AscFrom prev new) ∧
      (parseRanges prev acc items = .ok [] ∨
       (parseRanges prev acc items = .throws .outOfRange ∧
        ∃ s ∈ items, ∃ ds, ds <:+: s ∧ Digits ds ∧ sizeMax < digitsVal ds))) := by
  induction items generalizing prev acc with
  | nil => left; exact ⟨[], .nil, trivial, by simp [parseRanges]⟩
  | cons s rest ih =>
    rcases parse_step prev acc s rest with ⟨r, h1, h2, h3, h4⟩ | ⟨h1, h4⟩ | ⟨h1, h4, h5⟩
    · by_cases hp : prev < r.1
      · rw [if_pos hp] at h4
        rcases ih r.2 (acc ++ [r]) with ⟨new, h5, h6, h7⟩ | ⟨h5, h6⟩
        · left
          exact ⟨r :: new, .cons h1 h5, ⟨hp, h3, h6⟩, by rw [h4, h7]; simp⟩
        · right
          refine ⟨?_, ?_⟩
          · rintro ⟨new, h8, h9⟩
            cases h8 with
            | cons ha hb =>
              rw [h2 _ ha] at h9
              exact h5 ⟨_, hb, h9.2.2⟩
          · rw [h4]
            rcases h6 with h6 | ⟨h6, t, ht, h7⟩
            · exact .inl h6
            · exact .inr ⟨h6, t, by simp [ht], h7⟩
      · rw [if_neg hp] at h4
        right
        refine ⟨?_, .inl h4⟩
        rintro ⟨new, h8, h9⟩
        cases h8 with
        | cons ha hb =>
          rw [h2 _ ha] at h9
          exact hp h9.1
    · right
      refine ⟨?_, .inl h4⟩
      rintro ⟨new, h8, _⟩
      cases h8 with
      | cons ha hb => exact h1 _ ha
    · right
      refine ⟨?_, .inr ⟨h4, s, by simp, h5⟩⟩
      rintro ⟨new, h8, _⟩
      cases h8 with
      | cons ha hb => exact h1 _ ha

theorem joinString_eq_intercalate (c : UInt8) (l : List Bytes) : Text.joinString [c] l = [c].intercalate l := by
  induction l with
  | nil => simp [Text.joinString, List.intercalate]
  | cons x xs ih =>
    cases xs with
    | nil => simp [Text.joinString_one, List.intercalate]
    | cons y ys =>
      rw [Text.joinString_cons, ih]
      simp [List.intercalate]

theorem rangeItem_no_comma {s : Bytes} {r : Nat × Nat} (h : RangeItem s r) : (44 : UInt8) ∉ s := by
  have nd : ∀ {ds : Bytes} {n : Nat}, Number ds n → (44 : UInt8) ∉ ds := by
    intro ds n hn hm
    have := hn.1.2 44 hm
    revert this; decide
  cases h with
  | page h => exact nd h
  | fromTo h1 h2 _ => simp [nd h1, nd h2]
  | openEnd h1 => simp [nd h1]

theorem all2_mem_left {α β : Type} {R : α → β → Prop} {as : List α} {bs : List β} (h : All2 R as bs) :
    ∀ a ∈ as, ∃ b ∈ bs, R a b := by
  induction h with
  | nil => simp
  | cons hr _ ih =>
    intro a ha
    rcases List.mem_cons.mp ha with rfl | ha
    · exact ⟨_, by simp, hr⟩
    · obtain ⟨b, hb, h⟩ := ih a ha
      exact ⟨b, by simp [hb], h⟩

/-- Being denoted, in terms of the pieces between the commas. -/
theorem denotes_iff (s : Bytes) (rs : List (Nat × Nat)) :
    DenotesRanges s rs ↔ All2 RangeItem (Text.splitString [44] s) rs ∧ AscFrom 0 rs := by
  constructor
  · rintro ⟨items, h1, h2, h3, rfl⟩
    rw [← joinString_eq_intercalate, Text.splitString_join 44 items h1]
    · exact ⟨h2, (ascending_iff rs).mp h3⟩
    · intro p hp
      obtain ⟨r, _, hr⟩ := all2_mem_left h2 p hp
      exact rangeItem_no_comma hr
  · rintro ⟨h1, h2⟩
    refine ⟨_, Text.splitString_ne_nil _ _, h1, (ascending_iff rs).mpr h2, ?_⟩
    rw [← joinString_eq_intercalate, Text.joinString_split]

theorem piece_infix (c : UInt8) (s p : Bytes) (h : p ∈ Text.splitString [c] s) : p <:+: s := by
  induction s using Text.splitString_ind c with
  | h0 s hs =>
    rw [Text.splitString_notMem c s hs] at h
    simp at h; subst h; exact List.infix_rfl
  | h1 a b ha ih =>
    rw [Text.splitString_step c a b ha] at h
    rcases List.mem_cons.mp h with rfl | h
    · exact ⟨[], c :: b, by simp⟩
    · exact (ih h).trans ⟨a ++ [c], [], by simp⟩

end Verif
