import Verif.Params.RangeLemmas

/-! # Lemmas on paper size names -/

namespace Verif

theorem digits_no {ds : Bytes} (h : Digits ds) (c : UInt8) (hc : isDigit c = false) : c ∉ ds := by
  intro hm; rw [h.2 c hm] at hc; cases hc

theorem digitsVal_append (a b : Bytes) : digitsVal (a ++ b) = digitsVal a * 10 ^ b.length + digitsVal b := by
  have : ∀ (b : Bytes) (n : Nat), b.foldl (fun acc b => acc * 10 + (b.toNat - 48)) n =
      n * 10 ^ b.length + b.foldl (fun acc b => acc * 10 + (b.toNat - 48)) 0 := by
    intro b
    induction b with
    | nil => simp
    | cons c b ih =>
      intro n
      simp only [List.foldl_cons, List.length_cons]
      rw [ih, ih (0 * 10 + (c.toNat - 48)), Nat.pow_succ, Nat.add_mul, Nat.zero_mul, Nat.zero_add]
      have : n * 10 * 10 ^ b.length = n * (10 ^ b.length * 10) := by
        rw [Nat.mul_assoc, Nat.mul_comm 10]
      omega
  simp only [digitsVal, List.foldl_append]
  exact this b _

theorem rat_decimal (a b n : Nat) :
    (a : Rat) + (b : Rat) / (10 : Rat) ^ n = ((a * 10 ^ n + b : Nat) : Rat) / (10 : Rat) ^ n := by
  have h10 : (10 : Rat) ^ n ≠ 0 := by
    have : (0 : Rat) < (10 : Rat) ^ n := Rat.pow_pos (by decide)
    intro h; rw [h] at this; exact absurd this (by decide)
  rw [Rat.natCast_add, Rat.natCast_mul, Rat.natCast_pow, Rat.div_def, Rat.div_def, Rat.add_mul, Rat.mul_assoc]
  have : ((10 : Nat) : Rat) = 10 := rfl
  rw [this, Rat.mul_inv_cancel _ h10, Rat.mul_one]

theorem matchNumber_iff (s : Bytes) : matchNumber s = true ↔ ∃ i f, DecimalText s i f := by
  constructor
  · intro h
    simp only [matchNumber, Bool.and_eq_true, bne_iff_ne, ne_eq, Bool.or_eq_true, beq_iff_eq] at h
    obtain ⟨h1, h2⟩ := h
    have hd : Digits (s.takeWhile isDigit) := ⟨h1, fun b hb => mem_takeWhile' hb⟩
    have e := List.takeWhile_append_dropWhile (p := isDigit) (l := s)
    rcases h2 with h2 | ⟨⟨h2, h3⟩, h4⟩
    · rw [h2, List.append_nil] at e
      rw [e] at hd
      exact ⟨s, [], .whole hd⟩
    · cases hr : s.dropWhile isDigit with
      | nil => rw [hr] at h2; cases h2
      | cons c t =>
        rw [hr] at h2 h3 h4 e
        simp only [List.head?_cons, Option.some.injEq] at h2
        subst h2
        refine ⟨s.takeWhile isDigit, t, ?_⟩
        have : DecimalText (s.takeWhile isDigit ++ 46 :: t) (s.takeWhile isDigit) t :=
          .frac hd ⟨by simpa using h3, by simpa using h4⟩
        rw [e] at this; exact this
  · rintro ⟨i, f, h⟩
    cases h with
    | whole h =>
      have e1 := takeWhile_all (r := []) h.2 (by simp)
      have e2 := dropWhile_all (r := []) h.2 (by simp)
      rw [List.append_nil] at e1 e2
      simp [matchNumber, e1, e2, h.1]
    | frac h1 h2 =>
      have e1 := takeWhile_all (r := 46 :: f) h1.2 (by simp; decide)
      have e2 := dropWhile_all (r := 46 :: f) h1.2 (by simp; decide)
      simp [matchNumber, e1, e2, h1.1, h2.1]
      exact h2.2

theorem decimalText_unique {s i f i' f' : Bytes} (h : DecimalText s i f) (h' : DecimalText s i' f') : i = i' ∧ f = f' := by
  have no46 : ∀ {d : Bytes}, Digits d → (46 : UInt8) ∉ d := fun h => digits_no h 46 (by decide)
  have key : ∀ {s i f : Bytes}, DecimalText s i f → s.takeWhile (· ≠ 46) = i ∧ (s.dropWhile (· ≠ 46)).drop 1 = f := by
    intro s i f h
    cases h with
    | whole h =>
      have hd : ∀ a ∈ s, decide (a ≠ 46) = true := by
        intro a ha; simp; rintro rfl; exact no46 h ha
      have e1 := takeWhile_all (r := []) hd (by simp)
      have e2 := dropWhile_all (r := []) hd (by simp)
      rw [List.append_nil] at e1 e2
      rw [e1, e2]; simp
    | frac h1 h2 =>
      have hd : ∀ a ∈ i, decide (a ≠ 46) = true := by
        intro a ha; simp; rintro rfl; exact no46 h1 ha
      have e1 := takeWhile_all (r := 46 :: f) hd (by simp)
      have e2 := dropWhile_all (r := 46 :: f) hd (by simp)
      rw [e1, e2]; simp
  exact ⟨(key h).1.symm.trans (key h').1, (key h).2.symm.trans (key h').2⟩

theorem decimalText_no {s i f : Bytes} (h : DecimalText s i f) (c : UInt8) (hc : isDigit c = false) (h46 : c ≠ 46) : c ∉ s := by
  cases h with
  | whole h => exact digits_no h c hc
  | frac h1 h2 => simp [digits_no h1 c hc, digits_no h2 c hc, h46]

/-- The double for `i.f`. -/
def decimalDouble (i f : Bytes) : Rat :=
  if f = [] then dbl (digitsVal i) else dbl (dbl (digitsVal i) + dbl (dbl (digitsVal f) / dbl ((10 : Rat) ^ f.length)))

theorem fromString_spec {s i f : Bytes} (h : DecimalText s i f) (h1 : digitsVal i ≤ sizeMax) (h2 : digitsVal f ≤ sizeMax) :
    fromString s = .ok (decimalDouble i f) := by
  have no46 : ∀ {d : Bytes}, Digits d → (46 : UInt8) ∉ d := fun h => digits_no h 46 (by decide)
  have st : ∀ {d : Bytes}, Digits d → digitsVal d ≤ sizeMax → stoul d = .ok (digitsVal d) := by
    intro d hd hm
    rcases stoul_number hd with ⟨_, h⟩ | ⟨h, _⟩
    · exact h
    · omega
  cases h with
  | whole h =>
    have hd : ∀ a ∈ s, decide (a ≠ 46) = true := by
      intro a ha; simp; rintro rfl; exact no46 h ha
    have e1 := takeWhile_all (r := []) hd (by simp)
    have e2 := dropWhile_all (r := []) hd (by simp)
    rw [List.append_nil] at e1 e2
    unfold fromString
    simp only [e1, e2, st h h1, Outcome.bind_ok]
    rfl
  | frac hi hf =>
    have hd : ∀ a ∈ i, decide (a ≠ 46) = true := by
      intro a ha; simp; rintro rfl; exact no46 hi ha
    have e1 := takeWhile_all (r := 46 :: f) hd (by simp)
    have e2 := dropWhile_all (r := 46 :: f) hd (by simp)
    unfold fromString
    simp only [e1, e2, st hi h1, st hf h2, Outcome.bind_ok, Outcome.pure_eq]
    rw [decimalDouble, if_neg hf.1]

/-- A number that is read without an exception fits. -/
theorem fromString_fits {s i f : Bytes} {v : Rat} (h : DecimalText s i f) (hv : fromString s = .ok v) :
    digitsVal i ≤ sizeMax ∧ digitsVal f ≤ sizeMax := by
  have no46 : ∀ {d : Bytes}, Digits d → (46 : UInt8) ∉ d := fun h => digits_no h 46 (by decide)
  have st : ∀ {d : Bytes} {n : Nat}, Digits d → stoul d = .ok n → digitsVal d ≤ sizeMax := by
    intro d n hd hm
    rcases stoul_number hd with ⟨h, _⟩ | ⟨_, h⟩
    · exact h
    · rw [h] at hm; cases hm
  cases h with
  | whole h =>
    have hd : ∀ a ∈ s, decide (a ≠ 46) = true := by
      intro a ha; simp; rintro rfl; exact no46 h ha
    have e1 := takeWhile_all (r := []) hd (by simp)
    rw [List.append_nil] at e1
    unfold fromString at hv
    rw [e1, Outcome.bind_eq_ok] at hv
    obtain ⟨n, hn, _⟩ := hv
    exact ⟨st h hn, by decide⟩
  | frac hi hf =>
    have hd : ∀ a ∈ i, decide (a ≠ 46) = true := by
      intro a ha; simp; rintro rfl; exact no46 hi ha
    have e1 := takeWhile_all (r := 46 :: f) hd (by simp)
    have e2 := dropWhile_all (r := 46 :: f) hd (by simp)
    unfold fromString at hv
    rw [e1, e2, Outcome.bind_eq_ok] at hv
    obtain ⟨n, hn, hv⟩ := hv
    simp only at hv
    rw [Outcome.bind_eq_ok] at hv
    obtain ⟨m, hm, _⟩ := hv
    exact ⟨st hi hn, st hf hm⟩

theorem isNameChar_iff (b : UInt8) : isNameChar b = true ↔ NameLetter b := by
  simp [isNameChar, NameLetter, or_assoc]

theorem takeWhile_drop_split {p : UInt8 → Bool} (l : Bytes) (c : UInt8) (hc : c ∈ l) (hp : ∀ x, p x = true ↔ x ≠ c) :
    l = l.takeWhile p ++ c :: (l.dropWhile p).drop 1 := by
  have e := List.takeWhile_append_dropWhile (p := p) (l := l)
  cases hr : l.dropWhile p with
  | nil =>
    rw [hr, List.append_nil] at e
    rw [← e] at hc
    exact absurd rfl ((hp c).mp (mem_takeWhile' hc))
  | cons d t =>
    have hd : p d = false := by
      have := List.head?_dropWhile_not p l
      rw [hr] at this; simpa using this
    have : d = c := by
      apply Classical.byContradiction
      intro hne; rw [(hp d).mpr hne] at hd; cases hd
    rw [hr, this] at e
    simpa using e.symm

theorem matchPaper_sound {s m1 m3 m5 : Bytes} (h : matchPaper s = some (m1, m3, m5)) :
    ∃ name, name ≠ [] ∧ (∀ b ∈ name, NameLetter b) ∧ matchNumber m1 = true ∧ matchNumber m3 = true ∧
      (m5 = ascii "mm" ∨ m5 = ascii "in") ∧ s = name ++ [95] ++ m1 ++ [120] ++ m3 ++ m5 := by
  simp only [matchPaper] at h
  split at h
  · rename_i hc
    obtain ⟨h1, h2, h3, h4, h5, h6, h7⟩ := hc
    simp only [Option.some.injEq, Prod.mk.injEq] at h
    obtain ⟨e1, e3, e5⟩ := h
    refine ⟨_, h1, ?_, e1 ▸ h5, e3 ▸ h6, e5 ▸ h7, ?_⟩
    · intro b hb
      rw [← isNameChar_iff]
      exact (List.all_eq_true.mp h2) b hb
    · have hp : ∀ c x : UInt8, decide (x ≠ c) = true ↔ x ≠ c := by intro c x; simp
      have h3' : (95 : UInt8) ∈ s.reverse := by simpa using h3
      have h4' : (120 : UInt8) ∈ (s.reverse.takeWhile (· ≠ 95)).reverse := by simpa using h4
      have d1 := takeWhile_drop_split s.reverse 95 h3' (hp 95)
      have d2 := takeWhile_drop_split _ 120 h4' (hp 120)
      have d3 := congrArg List.reverse d1
      simp only [List.reverse_reverse, List.reverse_append, List.reverse_cons] at d3
      have hdl : ((s.reverse.dropWhile (fun x => decide (x ≠ 95))).drop 1).reverse =
          (s.reverse.dropWhile (fun x => decide (x ≠ 95))).reverse.dropLast := by
        rw [List.dropLast_eq_take, List.reverse_drop]
        simp
      rw [hdl] at d3
      rw [d2] at d3
      rw [← e1, ← e3, ← e5]
      conv => lhs; rw [d3]
      simp only [List.append_assoc, List.take_append_drop, List.cons_append, List.nil_append]
  · cases h

theorem matchPaper_complete {name w h unit : Bytes} (h1 : name ≠ []) (h2 : ∀ b ∈ name, NameLetter b)
    (hw : matchNumber w = true) (hh : matchNumber h = true) (hu : unit = ascii "mm" ∨ unit = ascii "in") :
    matchPaper (name ++ [95] ++ w ++ [120] ++ h ++ unit) = some (w, h, unit) := by
  obtain ⟨wi, wf, hwt⟩ := (matchNumber_iff w).mp hw
  obtain ⟨hi, hf, hht⟩ := (matchNumber_iff h).mp hh
  have w95 := decimalText_no hwt 95 (by decide) (by decide)
  have h95 := decimalText_no hht 95 (by decide) (by decide)
  have w120 := decimalText_no hwt 120 (by decide) (by decide)
  have u95 : (95 : UInt8) ∉ unit := by rcases hu with rfl | rfl <;> decide +kernel
  have ulen : unit.length = 2 := by rcases hu with rfl | rfl <;> decide +kernel
  have es : name ++ [95] ++ w ++ [120] ++ h ++ unit = name ++ 95 :: (w ++ 120 :: (h ++ unit)) := by simp
  rw [es]
  have er : (name ++ 95 :: (w ++ 120 :: (h ++ unit))).reverse = (w ++ 120 :: (h ++ unit)).reverse ++ 95 :: name.reverse := by
    simp
  have hall : ∀ a ∈ (w ++ 120 :: (h ++ unit)).reverse, decide (a ≠ 95) = true := by
    intro a ha
    simp only [List.mem_reverse, List.mem_append, List.mem_cons] at ha
    simp only [decide_eq_true_eq]
    rintro rfl
    rcases ha with ha | ha | ha | ha
    · exact w95 ha
    · revert ha; decide
    · exact h95 ha
    · exact u95 ha
  have t1 := takeWhile_all (r := 95 :: name.reverse) hall (by simp)
  have t2 := dropWhile_all (r := 95 :: name.reverse) hall (by simp)
  have hall2 : ∀ a ∈ w, decide (a ≠ 120) = true := by
    intro a ha; simp only [decide_eq_true_eq]; rintro rfl; exact w120 ha
  have t3 := takeWhile_all (r := 120 :: (h ++ unit)) hall2 (by simp)
  have t4 := dropWhile_all (r := 120 :: (h ++ unit)) hall2 (by simp)
  simp only [matchPaper, er, t1, t2, List.reverse_reverse, t3, t4]
  have hl : (h ++ unit).length - 2 = h.length := by simp [ulen]
  have hdrop : List.drop 1 (120 :: (h ++ unit)) = h ++ unit := rfl
  simp only [hdrop, hl, List.take_left, List.drop_left]
  have hfront : (95 :: name.reverse).reverse.dropLast = name := by simp
  rw [hfront, if_pos]
  refine ⟨h1, ?_, by simp, by simp, hw, hh, hu⟩
  rw [List.all_eq_true]
  intro b hb
  exact (isNameChar_iff b).mpr (h2 b hb)

theorem matchPaper_none {s : Bytes} (h : matchPaper s = none) (wi wf hi hf u : Bytes) : ¬ PaperName s wi wf hi hf u := by
  rintro ⟨name, w, hh, h1, h2, h3, h4, h5, rfl⟩
  rw [matchPaper_complete h1 h2 ((matchNumber_iff _).mpr ⟨_, _, h3⟩) ((matchNumber_iff _).mpr ⟨_, _, h4⟩) h5] at h
  cases h

end Verif
