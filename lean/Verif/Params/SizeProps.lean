import Verif.Params.Unfit

/-!
# C65: the paper size in pixels, millimeters and points
-/

namespace Verif

/-! ## Specification -/

namespace Spec

/-- The length in inches of the number `v` in a paper size name that ends with `unit`. -/
def lengthInInches (unit : Bytes) (v : Rat) : Rat := if unit = ascii "in" then v else v / (254 / 10)

/-- `n` is what remains of `e` without its decimals, up to a relative error of 2^-48 in `e`. -/
def AboutFloor (n : Nat) (e : Rat) : Prop := e - e / 2 ^ 48 - 1 < n ∧ (n : Rat) ≤ e + e / 2 ^ 48

/-- `x` is `e`, rounded to 1/100, up to a relative error of 2^-48. -/
def AboutHundredth (x e : Rat) : Prop := e - e / 2 ^ 48 - 1 / 199 < x ∧ x < e + e / 2 ^ 48 + 1 / 199

/-- Sizes without rounding: whole millimeters; inches with a short binary representation, at most 15 decimals. -/
def Clean (unit i f : Bytes) (res : Nat) : Prop :=
  (unit = ascii "mm" ∧ f = [] ∧ digitsVal i * res < 2 ^ 43 ∧ digitsVal i < 2 ^ 53) ∨
  (unit = ascii "in" ∧ f.length ≤ 15 ∧ ∃ n k : Nat, decimalValue i f * 2 ^ k = n ∧ n * res < 2 ^ 53 ∧ n < 2 ^ 53)

end Spec

open Spec

/-! ## Errors -/

/-- `a` is between `b * l` and `b * u`. -/
def Bd (a b l u : Rat) : Prop := b * l ≤ a ∧ a ≤ b * u

theorem Bd.weaken {a b l u l' u' : Rat} (h : Bd a b l u) (hb : 0 ≤ b) (hl : l' ≤ l) (hu : u ≤ u') : Bd a b l' u' :=
  ⟨le_trans (mul_le_mul_of_nonneg_left hl hb) h.1, le_trans h.2 (mul_le_mul_of_nonneg_left hu hb)⟩

theorem Bd.nonneg {a b l u : Rat} (h : Bd a b l u) (hb : 0 ≤ b) (hl : 0 ≤ l) : 0 ≤ a := le_trans (mul_nonneg hb hl) h.1

theorem Bd.dbl {a b l u : Rat} (h : Bd a b l u) (hb : 0 ≤ b) (hl : 0 ≤ l) :
    Bd (dbl a) b (l * (1 - 1 / 2 ^ 53)) (u * (1 + 1 / 2 ^ 53)) := by
  obtain ⟨h1, h2⟩ := dbl_bounds (h.nonneg hb hl)
  constructor
  · rw [← mul_assoc]
    exact le_trans (mul_le_mul_of_nonneg_right h.1 (by norm_num)) h1
  · rw [← mul_assoc]
    exact le_trans h2 (mul_le_mul_of_nonneg_right h.2 (by norm_num))

theorem Bd.mul {a b l u c : Rat} (h : Bd a b l u) (hc : 0 ≤ c) : Bd (a * c) (b * c) l u := by
  constructor
  · have := mul_le_mul_of_nonneg_right h.1 hc; linarith
  · have := mul_le_mul_of_nonneg_right h.2 hc; linarith

theorem mmPerIn_bounds : (254 / 10 : Rat) * (1 - 1 / 2 ^ 53) ≤ mmPerIn ∧ mmPerIn ≤ 254 / 10 := by
  constructor <;> decide +kernel

theorem mmPerIn_pos : 0 < mmPerIn := by decide +kernel

theorem Bd.div_mm {a b l u : Rat} (h : Bd a b l u) (hb : 0 ≤ b) (hl : 0 ≤ l) :
    Bd (a / mmPerIn) (b / (254 / 10)) l (u * (1 + 1 / 2 ^ 52)) := by
  obtain ⟨m1, m2⟩ := mmPerIn_bounds
  have hp := mmPerIn_pos
  have ha := h.nonneg hb hl
  constructor
  · rw [le_div_iff₀ hp]
    calc b / (254 / 10) * l * mmPerIn ≤ b / (254 / 10) * l * (254 / 10) := by
          apply mul_le_mul_of_nonneg_left m2; positivity
      _ = b * l := by ring
      _ ≤ a := h.1
  · rw [div_le_iff₀ hp]
    have hbu : 0 ≤ b * u := le_trans ha h.2
    calc a ≤ b * u := h.2
      _ ≤ b * u * ((1 + 1 / 2 ^ 52) * (1 - 1 / 2 ^ 53)) := by
          have : (1 : Rat) ≤ (1 + 1 / 2 ^ 52) * (1 - 1 / 2 ^ 53) := by norm_num
          nlinarith
      _ = b * u / (254 / 10) * (1 + 1 / 2 ^ 52) * (254 / 10 * (1 - 1 / 2 ^ 53)) := by ring
      _ ≤ b * u / (254 / 10) * (1 + 1 / 2 ^ 52) * mmPerIn := by
          apply mul_le_mul_of_nonneg_left m1; positivity
      _ = b / (254 / 10) * (u * (1 + 1 / 2 ^ 52)) * mmPerIn := by ring

theorem Bd.mul_mm {a b l u : Rat} (h : Bd a b l u) (hb : 0 ≤ b) (hl : 0 ≤ l) :
    Bd (a * mmPerIn) (b * (254 / 10)) (l * (1 - 1 / 2 ^ 53)) u := by
  obtain ⟨m1, m2⟩ := mmPerIn_bounds
  have ha := h.nonneg hb hl
  have hbl := mul_nonneg hb hl
  constructor
  · calc b * (254 / 10) * (l * (1 - 1 / 2 ^ 53)) = b * l * (254 / 10 * (1 - 1 / 2 ^ 53)) := by ring
      _ ≤ b * l * mmPerIn := mul_le_mul_of_nonneg_left m1 hbl
      _ ≤ a * mmPerIn := mul_le_mul_of_nonneg_right h.1 mmPerIn_pos.le
  · calc a * mmPerIn ≤ a * (254 / 10) := mul_le_mul_of_nonneg_left m2 ha
      _ ≤ b * u * (254 / 10) := mul_le_mul_of_nonneg_right h.2 (by norm_num)
      _ = b * (254 / 10) * u := by ring

theorem near_bd {x v : Rat} (h : Near x v) : Bd x v (1 - 1 / 2 ^ 50) (1 + 1 / 2 ^ 50) := by
  obtain ⟨h1, h2⟩ := h
  constructor <;> linarith

/-- Cutting off the decimals. -/
theorem Bd.aboutFloor {a e l u : Rat} (h : Bd a e l u) (he : 0 ≤ e) (hl : 1 - 1 / 2 ^ 48 ≤ l) (hu : u ≤ 1 + 1 / 2 ^ 48) :
    AboutFloor a.floor.toNat e := by
  have hl0 : (0 : Rat) ≤ 1 - 1 / 2 ^ 48 := by norm_num
  have ha := h.nonneg he (le_trans hl0 hl)
  obtain ⟨w1, w2⟩ := h.weaken he hl hu
  have hf : (0 : Int) ≤ a.floor := Int.floor_nonneg.mpr ha
  have h1 : ((a.floor : Int) : Rat) ≤ a := Int.floor_le a
  have h2 : a < ((a.floor : Int) : Rat) + 1 := Int.lt_floor_add_one a
  have hc : ((a.floor.toNat : Nat) : Rat) = ((a.floor : Int) : Rat) := by
    have : ((a.floor.toNat : Nat) : Int) = a.floor := Int.toNat_of_nonneg hf
    rw [← this]; norm_cast
  unfold AboutFloor
  rw [hc]
  constructor <;> linarith

/-- Rounding to 1/100. -/
theorem roundHundredth_about {a e l u : Rat} (h : Bd a e l u) (he : 0 ≤ e) (hl : 1 - 1 / 2 ^ 49 ≤ l) (hu : u ≤ 1 + 1 / 2 ^ 49) :
    AboutHundredth (roundHundredth a) e := by
  obtain ⟨w1, w2⟩ := ((h.weaken he hl hu).mul (c := 100) (by norm_num)).dbl (by positivity) (by norm_num)
  have hd0 : 0 ≤ dbl (a * 100) := ((h.weaken he hl hu).mul (c := 100) (by norm_num)).dbl (by positivity) (by norm_num)
    |>.nonneg (by positivity) (by norm_num)
  have hr := abs_le.mp (roundAway_near (dbl (a * 100)))
  have hr0 : (0 : Rat) ≤ (roundAway (dbl (a * 100)) : Rat) := by
    have : 0 ≤ roundAway (dbl (a * 100)) := by
      unfold roundAway
      rw [if_pos hd0]
      exact Int.floor_nonneg.mpr (show (0 : Rat) ≤ dbl (a * 100) + 1 / 2 by linarith)
    exact_mod_cast this
  unfold roundHundredth AboutHundredth
  generalize dbl (a * 100) = d at *
  generalize (roundAway d : Rat) = r at *
  obtain ⟨q1, q2⟩ := dbl_bounds (show (0 : Rat) ≤ r / 100 by positivity)
  generalize dbl (r / 100) = x at *
  constructor <;> nlinarith

/-! ## C65 -/

/-- The number of pixels for a stored size. -/
theorem sizeInPixels_about {x v : Rat} (h : Near x v) (hv : 0 ≤ v) (unit : Bytes) (res : Nat) :
    AboutFloor (sizeInPixels (if unit = ascii "in" then .Inches else .Millimeters) x res) (lengthInInches unit v * res) := by
  have hr : (0 : Rat) ≤ res := by positivity
  have b1 := ((near_bd h).mul hr).dbl (mul_nonneg hv hr) (by norm_num)
  unfold lengthInInches
  by_cases hu : unit = ascii "in"
  · rw [if_pos hu, if_pos hu]
    exact b1.aboutFloor (mul_nonneg hv hr) (by norm_num) (by norm_num)
  · rw [if_neg hu, if_neg hu]
    have b2 := (b1.div_mm (mul_nonneg hv hr) (by norm_num)).dbl (by positivity) (by norm_num)
    have e : v / (254 / 10) * res = v * res / (254 / 10) := by ring
    rw [e]
    exact b2.aboutFloor (by positivity) (by norm_num) (by norm_num)

/-- Millimeters. -/
theorem sizeInMillimeters_about {x v : Rat} (h : Near x v) (hv : 0 ≤ v) (unit : Bytes) (res : Nat) :
    AboutHundredth (sizeInMillimeters (if unit = ascii "in" then .Inches else .Millimeters) x res)
      (lengthInInches unit v * (254 / 10)) := by
  unfold lengthInInches
  by_cases hu : unit = ascii "in"
  · rw [if_pos hu, if_pos hu]
    exact roundHundredth_about (((near_bd h).mul_mm hv (by norm_num)).dbl (by positivity) (by norm_num)) (by positivity)
      (by norm_num) (by norm_num)
  · rw [if_neg hu, if_neg hu]
    have e : v / (254 / 10) * (254 / 10) = v := by ring
    rw [e]
    obtain ⟨h1, h2⟩ := h
    show AboutHundredth x v
    constructor <;> nlinarith

/-- Points. -/
theorem sizeInPoints_about {x v : Rat} (h : Near x v) (hv : 0 ≤ v) (unit : Bytes) (res : Nat) :
    AboutHundredth (sizeInPoints (if unit = ascii "in" then .Inches else .Millimeters) x res)
      (lengthInInches unit v * 72) := by
  unfold lengthInInches
  by_cases hu : unit = ascii "in"
  · rw [if_pos hu, if_pos hu]
    obtain ⟨h1, h2⟩ := ((near_bd h).mul (c := 72) (by norm_num)).dbl (by positivity) (by norm_num)
    show AboutHundredth (dbl (x * 72)) _
    constructor <;> nlinarith
  · rw [if_neg hu, if_neg hu]
    exact roundHundredth_about (((((near_bd h).div_mm hv (by norm_num)).dbl (by positivity) (by norm_num)).mul
      (c := 72) (by norm_num)).dbl (by positivity) (by norm_num)) (by positivity) (by norm_num) (by norm_num)


theorem floor_eq {a : Rat} {z : Int} (h1 : (z : Rat) ≤ a) (h2 : a < (z : Rat) + 1) : a.floor = z := by
  show ⌊a⌋ = z
  exact Int.floor_eq_iff.mpr ⟨h1, h2⟩

/-- Whole millimeters: the quotient by the double 25.4 (a little less than 25.4) is cut off like the exact one, because a number that is not
whole is at least 1/127 below the next whole number. -/
theorem sizeInPixels_mm {N : Nat} (h : N < 2 ^ 43) : (dbl ((N : Rat) / mmPerIn)).floor = ((N : Rat) / (254 / 10)).floor := by
  obtain ⟨m1, m2⟩ := mmPerIn_bounds
  have hp := mmPerIn_pos
  have hN : (0 : Rat) ≤ N := by positivity
  have hN' : (N : Rat) < 2 ^ 43 := by exact_mod_cast h
  have b : Bd (N : Rat) N 1 1 := ⟨by linarith, by linarith⟩
  have b1 := b.div_mm hN (by norm_num)
  obtain ⟨_, u2⟩ := b1.dbl (by positivity) (by norm_num)
  have lo : (N : Rat) / (254 / 10) ≤ N / mmPerIn := by have := b1.1; linarith
  have hk : (N : Rat) / (254 / 10) = ((N * 5 : Nat) : Rat) / 127 := by push_cast; ring
  have hdm := Nat.div_add_mod (N * 5) 127
  have hmod := Nat.mod_lt (N * 5) (show 0 < 127 by norm_num)
  have hfl : ((N : Rat) / (254 / 10)).floor = ((N * 5 / 127 : Nat) : Int) := by
    rw [hk]
    have hdm' : ((N * 5 : Nat) : Rat) = 127 * ((N * 5 / 127 : Nat) : Rat) + ((N * 5 % 127 : Nat) : Rat) := by exact_mod_cast hdm.symm
    have hmod' : ((N * 5 % 127 : Nat) : Rat) < 127 := by exact_mod_cast hmod
    have hmod0 : (0 : Rat) ≤ ((N * 5 % 127 : Nat) : Rat) := by positivity
    rw [hdm']
    apply floor_eq <;> rw [Int.cast_natCast]
    · rw [le_div_iff₀ (by norm_num)]; linarith
    · rw [div_lt_iff₀ (by norm_num)]; linarith
  rw [hfl]
  have hdm' : (N : Rat) * 5 = 127 * ((N * 5 / 127 : Nat) : Rat) + ((N * 5 % 127 : Nat) : Rat) := by exact_mod_cast hdm.symm
  have hmod' : ((N * 5 % 127 : Nat) : Rat) ≤ 126 := by exact_mod_cast (by omega : N * 5 % 127 ≤ 126)
  have hmod0 : (0 : Rat) ≤ ((N * 5 % 127 : Nat) : Rat) := by positivity
  apply floor_eq <;> rw [Int.cast_natCast]
  · apply le_dbl
    · omega
    · refine le_trans ?_ lo
      rw [le_div_iff₀ (by norm_num)]; linarith
  · refine lt_of_le_of_lt u2 ?_
    have e : (N : Rat) / (254 / 10) = N * 5 / 127 := by ring
    rw [e]
    have hq : (N : Rat) * 5 / 127 ≤ ((N * 5 / 127 : Nat) : Rat) + 126 / 127 := by
      rw [div_le_iff₀ (by norm_num)]; linarith
    have hq2 : (N : Rat) * 5 / 127 ≤ 2 ^ 43 * 5 / 127 := by
      apply div_le_div_of_nonneg_right _ (by norm_num); linarith
    generalize (N : Rat) * 5 / 127 = t at *
    nlinarith

/-- C65, in full: the paper is as many pixels wide and high as fit. -/
def C65_pixels_full : Prop := ∀ (p : Paper) (q : Params) (s wi wf hi hf unit : Bytes), PaperName s wi wf hi hf unit → Spec.SizeFits wi wf → Spec.SizeFits hi hf →
  (paperWInPixels (setPaperSize p s).paper q : Int) = (lengthInInches unit (decimalValue wi wf) * q.hwResW).floor ∧
  (paperHInPixels (setPaperSize p s).paper q : Int) = (lengthInInches unit (decimalValue hi hf) * q.hwResH).floor

theorem numbersFit_short {s : Bytes} (h : s.length ≤ 19) : NumbersFit s := by
  intro ds hin hd
  have hl := hin.length_le
  have := digitsVal_lt_pow hd.2
  have : 10 ^ ds.length ≤ 10 ^ 19 := Nat.pow_le_pow_right (by omega) (by omega)
  have : sizeMax = 18446744073709551615 := rfl
  omega

/-- C65 is false of the code in full: of 279.4 mm at 360 dpi, the last of 3960 pixels is lost. -/
theorem C65_pixels_false : ¬ C65_pixels_full := by
  intro h
  have h1 := (h {} { hwResW := 360, hwResH := 360 } (ascii "a_279.4x1mm") (ascii "279") (ascii "4") (ascii "1") [] (ascii "mm")
    ⟨ascii "a", ascii "279.4", ascii "1", by decide +kernel,
      fun b hb => (isNameChar_iff b).mp (by revert b; decide +kernel),
      .frac (i := ascii "279") (f := ascii "4") ⟨by decide +kernel, by decide +kernel⟩ ⟨by decide +kernel, by decide +kernel⟩,
      .whole ⟨by decide +kernel, by decide +kernel⟩, .inl rfl, by decide +kernel⟩
    (by decide +kernel) (by decide +kernel)).1
  revert h1
  decide +kernel

theorem decimalValue_nonneg (i f : Bytes) : 0 ≤ decimalValue i f := by
  rw [decimalValue_eq]; positivity

/-- C65, pixels: as many pixels as fit, up to a relative error of 2^-48 in the length; exactly as many for whole millimeters
and for inches with a short binary representation. Missing to the full claim: one pixel for other lengths that are close to a whole number
of pixels. -/
theorem C65_pixels_partial (p : Paper) (q : Params) (s wi wf hi hf unit : Bytes) (hn : PaperName s wi wf hi hf unit)
    (fw : Spec.SizeFits wi wf) (fh : Spec.SizeFits hi hf) :
    AboutFloor (paperWInPixels (setPaperSize p s).paper q) (lengthInInches unit (decimalValue wi wf) * q.hwResW) ∧
    AboutFloor (paperHInPixels (setPaperSize p s).paper q) (lengthInInches unit (decimalValue hi hf) * q.hwResH) ∧
    (Clean unit wi wf q.hwResW →
      (paperWInPixels (setPaperSize p s).paper q : Int) = (lengthInInches unit (decimalValue wi wf) * q.hwResW).floor) ∧
    (Clean unit hi hf q.hwResH →
      (paperHInPixels (setPaperSize p s).paper q : Int) = (lengthInInches unit (decimalValue hi hf) * q.hwResH).floor) := by
  obtain ⟨w, h, hw, hh, e⟩ := (C17_exact p s).1 wi wf hi hf unit hn fw fh
  have exact : ∀ {x : Rat} {i f : Bytes} {res : Nat}, IsAbout x i f → Clean unit i f res →
      (sizeInPixels (if unit = ascii "in" then .Inches else .Millimeters) x res : Int) =
        (lengthInInches unit (decimalValue i f) * res).floor := by
    intro x i f res hx hc
    have nn : ∀ {y : Rat}, 0 ≤ y → ((y.floor.toNat : Nat) : Int) = y.floor := fun hy => Int.toNat_of_nonneg (Int.floor_nonneg.mpr hy)
    have hv := decimalValue_nonneg i f
    have hr : (0 : Rat) ≤ res := by positivity
    unfold lengthInInches
    rcases hc with ⟨hu, hf0, hb, hb'⟩ | ⟨hu, hl, n, k, hnk, hb, hn53⟩
    · have hne : unit ≠ ascii "in" := by rw [hu]; decide
      rw [if_neg hne, if_neg hne]
      have hval : decimalValue i f = digitsVal i := by rw [decimalValue_eq, hf0]; simp [digitsVal]
      have hx' : x = digitsVal i := by
        rw [hx.2 ⟨by rw [hf0]; simp, digitsVal i, 0, hb', by rw [hval]; simp⟩, hval]
      have h1 : (digitsVal i : Rat) * res = ((digitsVal i * res : Nat) : Rat) := by push_cast; rfl
      show (((dbl (dbl (x * res) / mmPerIn)).floor.toNat : Nat) : Int) = _
      have e2 : decimalValue i f / (254 / 10) * res = ((digitsVal i * res : Nat) : Rat) / (254 / 10) := by rw [hval]; push_cast; ring
      have h0 : (0 : Rat) ≤ ((digitsVal i * res : Nat) : Rat) := by positivity
      rw [e2, hx', h1, dbl_nat (by omega), nn (dbl_nonneg (div_nonneg h0 mmPerIn_pos.le)), sizeInPixels_mm hb]
    · rw [if_pos hu, if_pos hu]
      have hx' : x = decimalValue i f := hx.2 ⟨hl, n, k, hn53, hnk⟩
      show (((dbl (x * res)).floor.toNat : Nat) : Int) = _
      rw [hx', dbl_dyadic (m := n * res) (k := k) hb (by rw [Nat.cast_mul, ← hnk]; ring), nn (mul_nonneg hv hr)]
  rw [e]
  exact ⟨sizeInPixels_about hw.1 (decimalValue_nonneg _ _) unit _, sizeInPixels_about hh.1 (decimalValue_nonneg _ _) unit _,
    exact hw, exact hh⟩

/-- C65, millimeters and points: those of the name, up to 1/199 and a relative error of 2^-48. -/
theorem C65_lengths (p : Paper) (q : Params) (s wi wf hi hf unit : Bytes) (hn : PaperName s wi wf hi hf unit)
    (fw : Spec.SizeFits wi wf) (fh : Spec.SizeFits hi hf) :
    AboutHundredth (paperWInMillimeters (setPaperSize p s).paper q) (lengthInInches unit (decimalValue wi wf) * (254 / 10)) ∧
    AboutHundredth (paperHInMillimeters (setPaperSize p s).paper q) (lengthInInches unit (decimalValue hi hf) * (254 / 10)) ∧
    AboutHundredth (paperWInPoints (setPaperSize p s).paper q) (lengthInInches unit (decimalValue wi wf) * 72) ∧
    AboutHundredth (paperHInPoints (setPaperSize p s).paper q) (lengthInInches unit (decimalValue hi hf) * 72) := by
  obtain ⟨w, h, hw, hh, e⟩ := (C17_exact p s).1 wi wf hi hf unit hn fw fh
  rw [e]
  exact ⟨sizeInMillimeters_about hw.1 (decimalValue_nonneg _ _) unit _, sizeInMillimeters_about hh.1 (decimalValue_nonneg _ _) unit _,
    sizeInPoints_about hw.1 (decimalValue_nonneg _ _) unit _, sizeInPoints_about hh.1 (decimalValue_nonneg _ _) unit _⟩

example : Clean (ascii "mm") (ascii "210") [] 600 ∧ Clean (ascii "in") (ascii "8") (ascii "5") 1200 :=
  ⟨.inl ⟨rfl, rfl, by decide +kernel, by decide +kernel⟩,
   .inr ⟨rfl, by decide, 17, 1, by decide +kernel, by decide, by decide⟩⟩

/-- A4 at 600 x 300 dpi. -/
example :
    let p := (setPaperSize {} (ascii "iso_a4_210x297mm")).paper
    let q : Params := { hwResW := 600, hwResH := 300 }
    paperWInPixels p q = 4960 ∧ paperHInPixels p q = 3507 ∧ paperWInPoints p q = dbl (59528 / 100) := by
  decide +kernel

end Verif
