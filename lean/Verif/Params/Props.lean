import Verif.Params.SeqLemmas
import Verif.Params.SizeLemmas

/-!
# Page ranges, page sequences and paper sizes: C14, C15, C16, C17
-/

namespace Verif

/-! ## C14 -/

/-- The full C14: exactly the page range expressions are accepted, and everything else gives the empty list. -/
def C14_full : Prop :=
  ∀ s : Bytes, (∀ rs, rs ≠ [] → (parsePageRange s = .ok rs ↔ DenotesRanges s rs)) ∧ ∃ rs, parsePageRange s = .ok rs

/-- C14 is false of the code: a number that does not fit `size_t` throws instead of giving the empty list. -/
theorem C14_page_ranges_false : ¬ C14_full := by
  intro h
  obtain ⟨rs, hr⟩ := (h (ascii "18446744073709551616")).2
  have : parsePageRange (ascii "18446744073709551616") = .throws .outOfRange := by decide +kernel
  rw [this] at hr; cases hr

/-- C14: the accepted strings are exactly the page range expressions, and the result is what they denote; everything else gives the
empty list, provided that the numbers fit `size_t`; otherwise the only other outcome is `std::out_of_range`. Missing to the full
C14: the empty list for numbers that do not fit. -/
theorem C14_page_ranges_partial (s : Bytes) :
    (∀ rs, rs ≠ [] → (parsePageRange s = .ok rs ↔ DenotesRanges s rs)) ∧
    (NumbersFit s → (∀ rs, ¬ DenotesRanges s rs) → parsePageRange s = .ok []) ∧
    ((∃ rs, parsePageRange s = .ok rs) ∨ parsePageRange s = .throws .outOfRange) := by
  have hne := Text.splitString_ne_nil [44] s
  rcases parseRanges_spec (Text.splitString [44] s) 0 [] with ⟨new, h1, h2, h3⟩ | ⟨h1, h2⟩
  · rw [List.nil_append] at h3
    have hd : DenotesRanges s new := (denotes_iff s new).mpr ⟨h1, h2⟩
    refine ⟨fun rs _ => ⟨fun h => ?_, fun h => ?_⟩, fun _ h => absurd hd (h new), .inl ⟨new, h3⟩⟩
    · rw [parsePageRange, h3] at h; cases h; exact hd
    · obtain ⟨h4, h5⟩ := (denotes_iff s rs).mp h
      rw [parsePageRange, h3]
      congr 1
      exact all2_unique (R := RangeItem) (fun _ _ _ ha hb => rangeItem_unique ha hb) h1 h4
  · have hnot : ∀ rs, ¬ DenotesRanges s rs := fun rs h => h1 ⟨rs, (denotes_iff s rs).mp h⟩
    rcases h2 with h2 | ⟨h2, t, ht, ds, h5, h6, h7⟩
    · refine ⟨fun rs hr => ⟨fun h => ?_, fun h => absurd h (hnot rs)⟩, fun _ _ => h2, .inl ⟨[], h2⟩⟩
      rw [parsePageRange, h2] at h; cases h; exact absurd rfl hr
    · refine ⟨fun rs hr => ⟨fun h => ?_, fun h => absurd h (hnot rs)⟩, fun hf => ?_, .inr h2⟩
      · rw [parsePageRange, h2] at h; cases h
      · have := hf ds (h5.trans (piece_infix 44 s t ht)) h6
        omega

/-- "1,3-5,7-" is such an expression, for the pages 1, 3 to 5, and 7 to the end. -/
example : DenotesRanges (ascii "1,3-5,7-") [(1, 1), (3, 5), (7, sizeMax)] :=
  ((C14_page_ranges_partial _).1 _ (by simp)).mp (by decide +kernel)

/-- "3,1" is none, and its numbers fit. -/
example : parsePageRange (ascii "3,1") = .ok [] ∧ parsePageRange (ascii "0") = .ok [] ∧
    parsePageRange (ascii "1,,2") = .ok [] ∧ parsePageRange (ascii "5-3") = .ok [] ∧ parsePageRange [] = .ok [] := by
  decide +kernel

/-- C14 for the caller: `setPageRange` succeeds exactly for page range expressions, with what they denote; for anything else whose numbers fit it fails and
leaves no ranges; nothing but the ranges changes. -/
theorem C14_set_page_range_partial (p : Params) (s : Bytes) :
    (∀ p', p.setPageRange s = .ok (p', true) ↔ ∃ rs, DenotesRanges s rs ∧ p' = { p with pageRangeList := rs }) ∧
    (NumbersFit s → (∀ rs, ¬ DenotesRanges s rs) → p.setPageRange s = .ok ({ p with pageRangeList := [] }, false)) ∧
    ((∃ p' b, p.setPageRange s = .ok (p', b)) ∨ p.setPageRange s = .throws .outOfRange) := by
  obtain ⟨h1, h2, h3⟩ := C14_page_ranges_partial s
  have hne : ∀ rs, DenotesRanges s rs → rs ≠ [] := by
    rintro rs ⟨items, hi, ha, _⟩ rfl
    cases ha
    exact hi rfl
  refine ⟨fun p' => ⟨fun h => ?_, ?_⟩, fun hf hd => ?_, ?_⟩
  · obtain ⟨l, hl, h⟩ := Outcome.bind_eq_ok.mp h
    simp only [Outcome.pure_eq, Outcome.ok.injEq, Prod.mk.injEq, Bool.not_eq_eq_eq_not, Bool.not_true,
      List.isEmpty_eq_false_iff] at h
    exact ⟨l, (h1 l h.2).mp hl, h.1.symm⟩
  · rintro ⟨rs, hd, rfl⟩
    have hl := (h1 rs (hne rs hd)).mpr hd
    unfold Params.setPageRange
    rw [hl]
    have := hne rs hd
    simp [this]
  · unfold Params.setPageRange
    rw [h2 hf hd]; rfl
  · rcases h3 with ⟨rs, h⟩ | h
    · exact .inl ⟨_, _, by unfold Params.setPageRange; rw [h]; rfl⟩
    · exact .inr (by unfold Params.setPageRange; rw [h]; rfl)

example : (Params.setPageRange {} (ascii "2,4-6")).bind (fun x => .ok (x.1.pageRangeList, x.2)) = .ok ([(2, 2), (4, 6)], true) ∧
    (Params.setPageRange {} (ascii "4,2")).bind (fun x => .ok (x.1.pageRangeList, x.2)) = .ok ([], false) := by decide +kernel

/-! ## C15 -/

/-- C15: with one copy and disjoint ascending ranges (or none), the page sequence is strictly ascending and has exactly the selected
pages; these two facts determine it. -/
theorem C15_page_sequence (p : Params) (n : Nat) (hc : p.copies ≤ 1) (hr : AscendingRanges p.pageRangeList) :
    ∃ seq, p.pageSequence n = .ok seq ∧ seq.Pairwise (· < ·) ∧ ∀ q, q ∈ seq ↔ Selected p.pageRangeList n q := by
  have hseq : p.pageSequence n =
      .ok (selectedPages (if p.pageRangeList = [] then [(1, n)] else p.pageRangeList) n) := by
    unfold Params.pageSequence
    simp only []
    rw [if_neg (by omega)]
  refine ⟨_, hseq, ?_, ?_⟩
  · split
    · exact pairwise_selectedPages _ _ (by simp)
    · exact pairwise_selectedPages _ _ hr.1
  · intro q
    rw [mem_selectedPages]
    unfold Selected
    split
    · rename_i h; simp [h]
    · rename_i h
      constructor
      · rintro ⟨r, h1, h2, h3, h4⟩
        have := hr.2 r h1
        exact ⟨by omega, h4, .inr ⟨r, h1, h2, h3⟩⟩
      · rintro ⟨h1, h2, h3⟩
        rcases h3 with h3 | ⟨r, h3, h4, h5⟩
        · exact absurd h3 h
        · exact ⟨r, h3, h4, h5, h2⟩

/-- C15, from the page range expression to the sequence: when `setPageRange` accepts an expression, then the page sequence has exactly
the pages it denotes. -/
theorem C15_page_sequence_of_expression (p p' : Params) (s : Bytes) (n : Nat) (hc : p.copies ≤ 1)
    (hs : p.setPageRange s = .ok (p', true)) :
    ∃ rs seq, DenotesRanges s rs ∧ p'.pageSequence n = .ok seq ∧ seq.Pairwise (· < ·) ∧
      ∀ q, q ∈ seq ↔ 1 ≤ q ∧ q ≤ n ∧ ∃ r ∈ rs, r.1 ≤ q ∧ q ≤ r.2 := by
  obtain ⟨l, hl, h2⟩ := Outcome.bind_eq_ok.mp hs
  simp only [Outcome.pure_eq, Outcome.ok.injEq, Prod.mk.injEq, Bool.not_eq_eq_eq_not, Bool.not_true,
    List.isEmpty_eq_false_iff] at h2
  obtain ⟨rfl, hne⟩ := h2
  have hd := ((C14_page_ranges_partial s).1 l hne).mp hl
  have hasc : AscendingRanges l := by obtain ⟨_, _, _, h, _⟩ := hd; exact h
  obtain ⟨seq, h3, h4, h5⟩ := C15_page_sequence { p with pageRangeList := l } n hc hasc
  refine ⟨l, seq, hd, h3, h4, fun q => ?_⟩
  rw [h5 q]
  simp [Selected, hne]

/-- C15 for arbitrary ranges, as they can come from a page-ranges attribute: the requested ranges, each clipped to the pages of the
document, one after the other in the order of the request. -/
theorem C15_page_sequence_any (p : Params) (n : Nat) (hc : p.copies ≤ 1) (hne : p.pageRangeList ≠ []) :
    ∃ parts, p.pageSequence n = .ok parts.flatten ∧
      All2 (fun r part => part.Pairwise (· < ·) ∧ ∀ q, q ∈ part ↔ r.1 ≤ q ∧ q ≤ r.2 ∧ q ≤ n) p.pageRangeList parts := by
  refine ⟨p.pageRangeList.map (fun r => pagesFromTo r.1 (min r.2 n)), ?_, ?_⟩
  · unfold Params.pageSequence
    simp only []
    rw [if_neg (by omega), if_neg hne, selectedPages_eq, List.flatMap_def]
  · generalize p.pageRangeList = l
    induction l with
    | nil => exact .nil
    | cons r l ih =>
      refine .cons ⟨pairwise_pagesFromTo _ _, fun q => ?_⟩ ih
      rw [mem_pagesFromTo]; omega

example : AscendingRanges [(1, 1), (3, 5), (7, sizeMax)] ∧
    ({ pageRangeList := [(1, 1), (3, 5), (7, sizeMax)] } : Params).pageSequence 8 = .ok [1, 3, 4, 5, 7, 8] := by
  refine ⟨⟨by decide +kernel, by decide +kernel⟩, by decide +kernel⟩

example : ({ pageRangeList := [(4, 9), (2, 3)] } : Params).pageSequence 5 = .ok [4, 5, 2, 3] := by decide +kernel

/-! ## C16 -/

/-- C16: with `k > 1` copies. `base` is the sequence for one copy, and `run` is what one copy occupies: `base`, with a blank page at
the end when it is two-sided and would end on a front side.

* collated: `k` runs one after the other;
* uncollated, one-sided: each page `k` times;
* uncollated, two-sided: each sheet (two consecutive pages) `k` times;
* each page is there exactly `k` times as often as in `base`, blank pages aside;
* two-sided: each sheet of the sequence is one of the sheets of `run`: the same front and the same back. -/
theorem C16_copies (p : Params) (n : Nat) (hk : 1 < p.copies) :
    ∃ base run seq : List Nat,
      { p with copies := 1 }.pageSequence n = .ok base ∧ p.pageSequence n = .ok seq ∧
      run = (if p.duplexMode ≠ .OneSided ∧ base.length % 2 = 1 then base ++ [0] else base) ∧
      seq.length = p.copies * run.length ∧
      (p.collatedCopies = true → ∀ i, i < seq.length → seq[i]? = run[i % run.length]?) ∧
      (p.collatedCopies = false → p.duplexMode = .OneSided → ∀ i, i < seq.length → seq[i]? = run[i / p.copies]?) ∧
      (p.collatedCopies = false → p.duplexMode ≠ .OneSided → ∀ j s, s < 2 → 2 * j + s < seq.length →
        seq[2 * j + s]? = run[2 * (j / p.copies) + s]?) ∧
      (∀ q, 1 ≤ q → seq.count q = p.copies * base.count q) ∧
      (p.duplexMode ≠ .OneSided → seq.length % 2 = 0 ∧ ∀ j, 2 * j < seq.length →
        ∃ m, 2 * m < run.length ∧ seq[2 * j]? = run[2 * m]? ∧ seq[2 * j + 1]? = run[2 * m + 1]?) := by
  obtain ⟨base, hbase⟩ : ∃ base, base =
    selectedPages (if p.pageRangeList = [] then [(1, n)] else p.pageRangeList) n := ⟨_, rfl⟩
  obtain ⟨run, hrun⟩ : ∃ run, run = (if p.duplexMode ≠ .OneSided ∧ base.length % 2 = 1 then base ++ [0] else base) := ⟨_, rfl⟩
  have hb : { p with copies := 1 }.pageSequence n = .ok base := by
    rw [hbase]; rfl
  have hts : p.isTwoSided = true ↔ p.duplexMode ≠ .OneSided := by simp [Params.isTwoSided]
  have heven : p.duplexMode ≠ .OneSided → run.length % 2 = 0 := by
    intro h; rw [hrun]; split
    · simp; omega
    · rename_i h2; have : ¬ base.length % 2 = 1 := fun h3 => h2 ⟨h, h3⟩
      omega
  have hcount : ∀ q, 1 ≤ q → run.count q = base.count q := by
    intro q hq
    rw [hrun]; split
    · rw [List.count_append, List.count_singleton]
      simp; omega
    · rfl
  -- what the sequence is
  have hs : p.pageSequence n =
      if p.collatedCopies then .ok (pushTimes (p.copies - 1) run run)
      else if p.isTwoSided then uncollatedSheets p.copies [] run
      else .ok (uncollatedPages p.copies [] run) := by
    unfold Params.pageSequence
    simp only [← hbase]
    rw [if_pos hk]
    have : (if p.isTwoSided = true ∧ base.length % 2 = 1 then base ++ [0] else base) = run := by
      rw [hrun]; simp only [hts]
    rw [this]
  by_cases hc : p.collatedCopies = true
  · -- collated
    have hp : pushTimes (p.copies - 1) run run = (List.replicate p.copies run).flatten := by
      rw [pushTimes_eq]
      obtain ⟨k, hk'⟩ : ∃ k, p.copies = k + 1 := ⟨p.copies - 1, by omega⟩
      rw [hk', List.replicate_succ, List.flatten_cons]; rfl
    rw [if_pos hc, hp] at hs
    have hlen := flatten_replicate_length p.copies run
    have hget : ∀ i, i < (List.replicate p.copies run).flatten.length →
        (List.replicate p.copies run).flatten[i]? = run[i % run.length]? :=
      fun i hi => runs_get _ _ _ (by omega)
    refine ⟨base, run, _, hb, hs, hrun, hlen, fun _ => hget, by simp [hc], by simp [hc], ?_, ?_⟩
    · intro q hq; rw [count_runs, hcount q hq]
    · intro h
      have he := heven h
      have hle : (List.replicate p.copies run).flatten.length % 2 = 0 := by rw [hlen, Nat.mul_mod, he]; simp
      refine ⟨hle, fun j hj => ?_⟩
      have hr0 : 0 < run.length := by
        rcases Nat.eq_zero_or_pos run.length with h0 | h0
        · rw [hlen, h0] at hj; omega
        · exact h0
      have hm := Nat.mod_lt (2 * j) hr0
      have hdm := Nat.div_add_mod (2 * j) run.length
      have hpar : (2 * j % run.length) % 2 = 0 := by
        have : (run.length * (2 * j / run.length)) % 2 = 0 := by rw [Nat.mul_mod, he]; simp
        omega
      have hm1 : (2 * j + 1) % run.length = 2 * j % run.length + 1 := by
        rw [Nat.add_mod]
        have : 1 % run.length = 1 := Nat.mod_eq_of_lt (by omega)
        rw [this]; exact Nat.mod_eq_of_lt (by omega)
      refine ⟨(2 * j % run.length) / 2, by omega, ?_, ?_⟩
      · rw [hget _ hj]; congr 1; omega
      · rw [hget _ (by omega), hm1]; congr 1; omega
  · rw [if_neg hc] at hs
    by_cases ht : p.duplexMode = .OneSided
    · -- uncollated, one-sided
      rw [if_neg (by simp [hts, ht]), uncollatedPages_eq, List.nil_append] at hs
      have hlen : (run.flatMap (fun x => List.replicate p.copies x)).length = p.copies * run.length := by
        exact pages_length _ _
      refine ⟨base, run, _, hb, hs, hrun, hlen, by simp [hc], fun _ _ i hi => pages_get _ _ _ (by omega),
        by simp [ht], ?_, by simp [ht]⟩
      intro q hq; rw [count_pages, hcount q hq]
    · -- uncollated, two-sided
      have he := heven ht
      rw [if_pos (hts.mpr ht), uncollatedSheets_eq _ _ _ he, List.nil_append] at hs
      have hlen := sheets_flat_length p.copies run he
      have hget : ∀ j s, s < 2 →
          2 * j + s < ((sheets run).flatMap (fun s => (List.replicate p.copies [s.1, s.2]).flatten)).length →
          ((sheets run).flatMap (fun s => (List.replicate p.copies [s.1, s.2]).flatten))[2 * j + s]? =
            run[2 * (j / p.copies) + s]? :=
        fun j s hs' hj => sheets_get _ _ he _ _ hs' (by omega)
      refine ⟨base, run, _, hb, hs, hrun, hlen, by simp [hc], by simp [ht], fun _ _ => hget, ?_, fun _ => ⟨?_, ?_⟩⟩
      · intro q hq; rw [count_sheets _ _ he, hcount q hq]
      · rw [hlen, Nat.mul_mod, he]; simp
      · intro j hj
        have hev : ((sheets run).flatMap (fun s => (List.replicate p.copies [s.1, s.2]).flatten)).length % 2 = 0 := by
          rw [hlen, Nat.mul_mod, he]; simp
        refine ⟨j / p.copies, ?_, hget j 0 (by omega) (by omega), hget j 1 (by omega) (by omega)⟩
        have h2 : run.length = 2 * (run.length / 2) := by omega
        have : j < p.copies * (run.length / 2) := by
          rw [hlen, h2, Nat.mul_left_comm] at hj; omega
        have := (Nat.div_lt_iff_lt_mul (by omega : 0 < p.copies)).mpr (by rwa [Nat.mul_comm] at this)
        omega

example : ({ copies := 2, duplexMode := .TwoSidedLongEdge } : Params).pageSequence 3 = .ok [1, 2, 3, 0, 1, 2, 3, 0] ∧
    ({ copies := 2, duplexMode := .TwoSidedLongEdge, collatedCopies := false } : Params).pageSequence 3 =
      .ok [1, 2, 1, 2, 3, 0, 3, 0] ∧
    ({ copies := 2, collatedCopies := false } : Params).pageSequence 3 = .ok [1, 1, 2, 2, 3, 3] := by decide +kernel

/-! ## C17 -/

/-- What is wanted of `setPaperSize`; `Is x i f` says that `x` is the stored number for `i.f`. -/
def PaperSizeSpec (Is : Rat → Bytes → Bytes → Prop) (p : Paper) (s : Bytes) (r : PaperResult) : Prop :=
  (∀ wi wf hi hf unit, PaperName s wi wf hi hf unit → ∃ w h, Is w wi wf ∧ Is h hi hf ∧
    r = ⟨.ok true, ⟨s, if unit = ascii "in" then .Inches else .Millimeters, w, h⟩⟩) ∧
  ((¬ ∃ wi wf hi hf unit, PaperName s wi wf hi hf unit) → r = ⟨.ok false, p⟩)

/-- The double nearest to the number in the text. -/
def IsNearest (x : Rat) (i f : Bytes) : Prop := x = dbl (decimalValue i f)

/-- The full C17: the stored sizes are the doubles nearest to the numbers in the name. -/
def C17_full : Prop := ∀ (p : Paper) (s : Bytes), PaperSizeSpec IsNearest p s (setPaperSize p s)

/-- C17 is false of the code: a number that does not fit `unsigned long` (also in the fraction) throws, and the name is
already changed then. -/
theorem C17_paper_size_false : ¬ C17_full := by
  intro h
  have h1 := (h {} (ascii "a_1.18446744073709551616x1mm")).1 (ascii "1") (ascii "18446744073709551616") (ascii "1") [] (ascii "mm")
    ⟨ascii "a", ascii "1.18446744073709551616", ascii "1", by decide +kernel,
      fun b hb => (isNameChar_iff b).mp (by revert b; decide +kernel),
      .frac (i := ascii "1") (f := ascii "18446744073709551616") ⟨by decide +kernel, by decide +kernel⟩
        ⟨by decide +kernel, by decide +kernel⟩,
      .whole ⟨by decide +kernel, by decide +kernel⟩, .inl rfl, by decide +kernel⟩
  obtain ⟨w, h, _, _, h1⟩ := h1
  have h2 : (setPaperSize {} (ascii "a_1.18446744073709551616x1mm")).ret = .ok true := congrArg PaperResult.ret h1
  revert h2
  decide +kernel

/-- C17 is false of the code also for numbers that fit: the whole and the decimals are rounded separately, and 1.14 is stored as
1.1400000000000001. -/
theorem C17_nearest_false : ¬ ∀ (p : Paper) (s : Bytes), NumbersFit s → PaperSizeSpec IsNearest p s (setPaperSize p s) := by
  intro hall
  have hfit : NumbersFit (ascii "a_1.14x1mm") := by
    intro ds hin hd
    have hl := hin.length_le
    have := digitsVal_lt_pow hd.2
    have h10 : (ascii "a_1.14x1mm").length = 10 := by decide +kernel
    rw [h10] at hl
    have : 10 ^ ds.length ≤ 10 ^ 10 := Nat.pow_le_pow_right (by omega) hl
    have : sizeMax = 18446744073709551615 := rfl
    omega
  obtain ⟨w, h, hw, _, h1⟩ := (hall {} (ascii "a_1.14x1mm") hfit).1 (ascii "1") (ascii "14") (ascii "1") [] (ascii "mm")
    ⟨ascii "a", ascii "1.14", ascii "1", by decide +kernel,
      fun b hb => (isNameChar_iff b).mp (by revert b; decide +kernel),
      .frac (i := ascii "1") (f := ascii "14") ⟨by decide +kernel, by decide +kernel⟩ ⟨by decide +kernel, by decide +kernel⟩,
      .whole ⟨by decide +kernel, by decide +kernel⟩, .inl rfl, by decide +kernel⟩
  have h2 : (setPaperSize {} (ascii "a_1.14x1mm")).paper.w = w := congrArg (fun r => r.paper.w) h1
  rw [IsNearest] at hw
  rw [hw] at h2
  revert h2
  decide +kernel

/-- The number, up to a relative error of 2^-50; if it has a short binary representation, exactly the number. -/
def IsAbout (x : Rat) (i f : Bytes) : Prop := Near x (decimalValue i f) ∧ (Short i f → x = decimalValue i f)

/-- C17: names whose numbers fit are stored with a relative error of at most 2^-50, and exactly where possible (for instance whole numbers,
and those with 3 decimals that are multiples of 1/8). Missing to the full C17: the numbers that do not fit, and the last
bits of numbers with other decimals. -/
theorem C17_paper_size_partial (p : Paper) (s : Bytes) (hf : NumbersFit s) : PaperSizeSpec IsAbout p s (setPaperSize p s) := by
  have about : ∀ {x i f : Bytes}, DecimalText x i f → IsAbout (decimalDouble i f) i f := by
    intro x i f hx
    refine ⟨decimalDouble_near i f, decimalDouble_short ?_⟩
    cases hx with
    | whole h => simp
    | frac _ h => exact h.2
  refine ⟨?_, ?_⟩
  · rintro wi wf hi hf' unit ⟨name, w, h, h1, h2, hw, hh, hu, rfl⟩
    have fit : ∀ {x i f : Bytes}, DecimalText x i f → x <:+: name ++ [95] ++ w ++ [120] ++ h ++ unit →
        digitsVal i ≤ sizeMax ∧ digitsVal f ≤ sizeMax := by
      intro x i f hx hin
      cases hx with
      | whole h => exact ⟨hf _ hin h, by decide⟩
      | frac hi hf' =>
        exact ⟨hf _ (List.IsInfix.trans ⟨[], 46 :: f, by simp⟩ hin) hi,
          hf _ (List.IsInfix.trans ⟨i ++ [46], [], by simp⟩ hin) hf'⟩
    have hw' := fit hw ⟨name ++ [95], [120] ++ h ++ unit, by simp⟩
    have hh' := fit hh ⟨name ++ [95] ++ w ++ [120], unit, by simp⟩
    unfold setPaperSize
    rw [matchPaper_complete h1 h2 ((matchNumber_iff _).mpr ⟨_, _, hw⟩) ((matchNumber_iff _).mpr ⟨_, _, hh⟩) hu]
    simp only [fromString_spec hw hw'.1 hw'.2, fromString_spec hh hh'.1 hh'.2]
    refine ⟨_, _, about hw, about hh, ?_⟩
    split <;> rfl
  · intro hno
    unfold setPaperSize
    cases hm : matchPaper s with
    | none => rfl
    | some m =>
      obtain ⟨m1, m3, m5⟩ := m
      obtain ⟨name, h1, h2, h3, h4, h5, h6⟩ := matchPaper_sound hm
      obtain ⟨wi, wf, hw⟩ := (matchNumber_iff m1).mp h3
      obtain ⟨hi, hf', hh⟩ := (matchNumber_iff m3).mp h4
      exact absurd ⟨wi, wf, hi, hf', m5, name, m1, m3, h1, h2, hw, hh, h5, h6⟩ hno

example : setPaperSize {} (ascii "na_letter_8.5x11in") = ⟨.ok true, ⟨ascii "na_letter_8.5x11in", .Inches, 17 / 2, 11⟩⟩ ∧
    setPaperSize {} (ascii "iso_a5_148x210mm") = ⟨.ok true, ⟨ascii "iso_a5_148x210mm", .Millimeters, 148, 210⟩⟩ ∧
    setPaperSize {} (ascii "a5") = ⟨.ok false, {}⟩ ∧ setPaperSize {} (ascii "_1x1mm") = ⟨.ok false, {}⟩ := by
  decide +kernel

example : Short (ascii "3") (ascii "875") := ⟨by decide +kernel, 31, 3, by decide, by decide +kernel⟩

end Verif
