import Verif.Text.Model

/-! # Lemmas on splitting, joining and the text converter -/

namespace Verif.Text

theorem findTok_one (c : UInt8) (s : Bytes) :
    (findTok [c] s = none ∧ c ∉ s) ∨
    ∃ a b, s = a ++ c :: b ∧ c ∉ a ∧ findTok [c] s = some a.length := by
  induction s with
  | nil => left; simp [findTok]
  | cons d t ih =>
    by_cases h : c = d
    · right; refine ⟨[], t, by simp [h], by simp, by simp [findTok, h, List.isPrefixOf]⟩
    · have h' : (c == d) = false := by simpa using h
      rcases ih with ⟨h1, h2⟩ | ⟨a, b, rfl, h2, h3⟩
      · left; simp [findTok, List.isPrefixOf, h', h1, h2, h]
      · right; exact ⟨d :: a, b, rfl, by simp [h, h2], by simp [findTok, List.isPrefixOf, h', h3]⟩

theorem splitString_notMem (c : UInt8) (s : Bytes) (h : c ∉ s) : splitString [c] s = [s] := by
  unfold splitString
  rcases findTok_one c s with ⟨h1, _⟩ | ⟨a, b, rfl, _, _⟩
  · simp [h1]
  · simp at h

theorem splitString_step (c : UInt8) (a b : Bytes) (h : c ∉ a) :
    splitString [c] (a ++ c :: b) = a :: splitString [c] b := by
  conv => lhs; unfold splitString
  rcases findTok_one c (a ++ c :: b) with ⟨_, h2⟩ | ⟨a', b', he, h2, h3⟩
  · simp at h2
  · have hl : a'.length = a.length := by
      rcases Nat.lt_trichotomy a'.length a.length with hlt | heq | hgt
      · exfalso; apply h
        have := congrArg (fun l => l[a'.length]?) he
        simp only [List.getElem?_append_left hlt, List.getElem?_append_right (Nat.le_refl _), Nat.sub_self,
          List.getElem?_cons_zero] at this
        exact List.mem_of_getElem? this
      · exact heq
      · exfalso; apply h2
        have := congrArg (fun l => l[a.length]?) he
        simp only [List.getElem?_append_left hgt, List.getElem?_append_right (Nat.le_refl _), Nat.sub_self,
          List.getElem?_cons_zero] at this
        exact List.mem_of_getElem? this.symm
    have hm : min (a.length + (b.length + 1)) a.length = a.length := by omega
    simp [h3, hl, hm]

theorem foldl_join (sep : Bytes) (xs : List Bytes) (x y : Bytes) :
    xs.foldl (fun res e => res ++ (sep ++ e)) (x ++ y) = x ++ xs.foldl (fun res e => res ++ (sep ++ e)) y := by
  induction xs generalizing y with
  | nil => rfl
  | cons z zs ih => simp only [List.foldl_cons, List.append_assoc, ih]

theorem joinString_cons (sep x y : Bytes) (ys : List Bytes) :
    joinString sep (x :: y :: ys) = x ++ sep ++ joinString sep (y :: ys) := by
  simp only [joinString, List.foldl_cons]
  rw [foldl_join, foldl_join]; simp

theorem joinString_one (sep x : Bytes) : joinString sep [x] = x := rfl

theorem splitString_ne_nil (tok s : Bytes) : splitString tok s ≠ [] := by
  unfold splitString; simp only; split <;> simp

theorem splitString_ind (c : UInt8) {P : Bytes → Prop} (h0 : ∀ s, c ∉ s → P s)
    (h1 : ∀ a b, c ∉ a → P b → P (a ++ c :: b)) (s : Bytes) : P s := by
  rcases findTok_one c s with ⟨_, h2⟩ | ⟨a, b, rfl, h2, _⟩
  · exact h0 s h2
  · exact h1 a b h2 (splitString_ind c h0 h1 b)
  termination_by s.length
  decreasing_by
    subst_vars; simp only [List.length_append, List.length_cons]; omega

/-- Putting a character in front of the first piece. -/
def onHead (c : UInt8) : List Bytes → List Bytes
  | [] => []
  | x :: xs => (c :: x) :: xs

/-- `splitString`, character by character. -/
theorem splitString_cons (tok : Bytes) (c : UInt8) (t : Bytes) :
    splitString tok (c :: t) =
      if tok.isPrefixOf (c :: t) then [] :: splitString tok t else onHead c (splitString tok t) := by
  conv => lhs; unfold splitString
  by_cases h : tok.isPrefixOf (c :: t) = true
  · simp [findTok, h]
  · rw [if_neg h]
    conv => rhs; unfold splitString
    simp only [findTok, if_neg h, List.length_cons]
    have e : min (t.length + 1) (((findTok tok t).map (· + 1)).getD (t.length + 1)) =
        min t.length ((findTok tok t).getD t.length) + 1 := by
      cases findTok tok t <;> simp <;> omega
    simp only [e]
    by_cases h2 : min t.length ((findTok tok t).getD t.length) < t.length
    · rw [dif_pos (by omega), dif_pos h2]; simp [onHead]
    · rw [dif_neg (by omega), dif_neg h2]; simp [onHead]

theorem splitString_nil (tok : Bytes) : splitString tok [] = [[]] := by
  unfold splitString; simp

theorem foldl_flat (f : Bytes → List Bytes) (xs : List Bytes) (acc : List Bytes) :
    xs.foldl (fun lines x => lines ++ f x) acc = acc ++ xs.flatMap f := by
  induction xs generalizing acc with
  | nil => simp
  | cons x xs ih => simp [ih]

theorem joinString_onHead (sep : Bytes) (c : UInt8) (l : List Bytes) (h : l ≠ []) :
    joinString sep (onHead c l) = c :: joinString sep l := by
  cases l with
  | nil => exact absurd rfl h
  | cons x xs =>
    cases xs with
    | nil => rfl
    | cons y ys => rw [onHead, joinString_cons, joinString_cons]; simp

/-- The lines that `FixupText` collects. -/
def fixLines (s : Bytes) : List Bytes := (splitString [13, 10] s).flatMap (splitString [10])

theorem fixupText_eq (s : Bytes) : fixupText s = joinString [13, 10] (fixLines s) := by
  simp only [fixupText, fixLines]; rw [foldl_flat]; simp

theorem fixLines_ne_nil (s : Bytes) : fixLines s ≠ [] := by
  obtain ⟨y, ys, hy⟩ := List.exists_cons_of_ne_nil (splitString_ne_nil [13, 10] s)
  simp [fixLines, hy, splitString_ne_nil]

theorem join_nil_cons (l : List Bytes) (h : l ≠ []) : joinString [13, 10] ([] :: l) = 13 :: 10 :: joinString [13, 10] l := by
  obtain ⟨y, ys, rfl⟩ := List.exists_cons_of_ne_nil h
  rw [joinString_cons]; rfl

theorem fixup_nil : fixupText [] = [] := by decide +kernel

theorem fixup_crlf (t : Bytes) : fixupText (13 :: 10 :: t) = 13 :: 10 :: fixupText (10 :: t) := by
  have : fixLines (13 :: 10 :: t) = [] :: fixLines (10 :: t) := by
    unfold fixLines
    rw [splitString_cons, if_pos (by simp [List.isPrefixOf])]
    simp [splitString_nil]
  rw [fixupText_eq, fixupText_eq, this, join_nil_cons _ (fixLines_ne_nil _)]

theorem fixup_lf (t : Bytes) : fixupText (10 :: t) = 13 :: 10 :: fixupText t := by
  have : fixLines (10 :: t) = [] :: fixLines t := by
    unfold fixLines
    rw [splitString_cons, if_neg (by simp [List.isPrefixOf])]
    obtain ⟨y, ys, hy⟩ := List.exists_cons_of_ne_nil (splitString_ne_nil [13, 10] t)
    rw [hy, onHead, List.flatMap_cons, splitString_cons, if_pos (by simp [List.isPrefixOf])]
    simp
  rw [fixupText_eq, fixupText_eq, this, join_nil_cons _ (fixLines_ne_nil _)]

theorem onHead_append (c : UInt8) (l m : List Bytes) (h : l ≠ []) : onHead c (l ++ m) = onHead c l ++ m := by
  cases l with
  | nil => exact absurd rfl h
  | cons x xs => rfl

theorem fixup_char (c : UInt8) (t : Bytes) (h1 : c ≠ 10) (h2 : c = 13 → t.head? ≠ some 10) :
    fixupText (c :: t) = c :: fixupText t := by
  have : fixLines (c :: t) = onHead c (fixLines t) := by
    unfold fixLines
    rw [splitString_cons, if_neg]
    · obtain ⟨y, ys, hy⟩ := List.exists_cons_of_ne_nil (splitString_ne_nil [13, 10] t)
      rw [hy, onHead, List.flatMap_cons, splitString_cons, if_neg (by simpa [List.isPrefixOf] using fun h => h1 h.symm),
        List.flatMap_cons, onHead_append _ _ _ (splitString_ne_nil _ _)]
    · rw [List.isPrefixOf_iff_prefix]
      rintro ⟨b, hb⟩
      simp only [List.cons_append, List.nil_append, List.cons.injEq] at hb
      apply h2 hb.1.symm
      simp [← hb.2]
  rw [fixupText_eq, fixupText_eq, this, joinString_onHead _ _ _ (fixLines_ne_nil _)]

/-- A line passes unchanged. -/
theorem fixup_plain (a t : Bytes) (h : 10 ∉ a) (h2 : t.head? = some 10 → a.getLast? ≠ some 13) :
    fixupText (a ++ t) = a ++ fixupText t := by
  induction a with
  | nil => rfl
  | cons c a ih =>
    have hc : c ≠ 10 := fun e => h (by simp [e])
    rw [List.cons_append, fixup_char c (a ++ t) hc, ih (fun m => h (by simp [m]))]
    · rfl
    · intro ht
      have := h2 ht
      cases a with
      | nil => simp
      | cons d a => simpa [List.getLast?_cons_cons] using this
    · rintro rfl
      cases a with
      | nil =>
        intro ht
        exact h2 ht (by simp)
      | cons d a =>
        simp only [List.cons_append, List.head?_cons, ne_eq, Option.some.injEq]
        exact fun e => h (by simp [e])

/-- joining the pieces gives the string back. -/
theorem joinString_split (c : UInt8) (s : Bytes) : joinString [c] (splitString [c] s) = s := by
  induction s using splitString_ind c with
  | h0 s h => rw [splitString_notMem c s h]; rfl
  | h1 a b h ih =>
    rw [splitString_step c a b h]
    obtain ⟨y, ys, hy⟩ := List.exists_cons_of_ne_nil (splitString_ne_nil [c] b)
    rw [hy] at ih ⊢
    rw [joinString_cons, ih]; simp

/-- no piece contains the separator, and there is always one piece more than there are separators. -/
theorem splitString_pieces (c : UInt8) (s : Bytes) :
    (∀ p ∈ splitString [c] s, c ∉ p) ∧ (splitString [c] s).length = s.count c + 1 := by
  induction s using splitString_ind c with
  | h0 s h =>
    rw [splitString_notMem c s h]
    simpa [List.count_eq_zero.mpr h] using h
  | h1 a b h ih =>
    rw [splitString_step c a b h]
    refine ⟨?_, ?_⟩
    · intro p hp
      rcases List.mem_cons.mp hp with rfl | hp
      · exact h
      · exact ih.1 p hp
    · simp [ih.2, List.count_eq_zero.mpr h]

/-- splitting a joined list of separator-free pieces gives that list. -/
theorem splitString_join (c : UInt8) (l : List Bytes) (hne : l ≠ []) (h : ∀ p ∈ l, c ∉ p) :
    splitString [c] (joinString [c] l) = l := by
  induction l with
  | nil => exact absurd rfl hne
  | cons x xs ih =>
    cases xs with
    | nil => rw [joinString_one, splitString_notMem c x (h x (by simp))]
    | cons y ys =>
      rw [joinString_cons, List.append_assoc, List.singleton_append, splitString_step c x _ (h x (by simp)),
        ih (by simp) (fun p hp => h p (by simp [hp]))]

end Verif.Text
