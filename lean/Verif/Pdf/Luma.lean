import Verif.Pdf.Raster
import Verif.Core.DoubleLemmas

/-! # Luminosities in double precision -/

namespace Verif.Pdf

namespace Spec

/-- What is used of the sum of a pixel's luminosity and a debt (an `int`) when it is turned into an integer: the luminosity is between 0 and 255; black
has luminosity 0, and white at least 254. -/
structure Sums (plus : Rgb → Int → Int) : Prop where
  low : ∀ p d, -2147483648 ≤ d → d ≤ 2147483647 → d ≤ plus p d
  high : ∀ p d, -2147483648 ≤ d → d ≤ 2147483647 → plus p d ≤ d + 255
  white : ∀ d, -2147483648 ≤ d → d ≤ 2147483647 → d + 254 ≤ plus 0xffffff d
  black : ∀ d, -2147483648 ≤ d → d ≤ 2147483647 → plus 0 d = d

/-- Red, green and blue of cairo's 24-bit pixels: `0xRRGGBB` (the upper byte is unused). -/
def rgb (q : Nat) : Nat × Nat × Nat := (q / 2 ^ 16 % 256, q / 2 ^ 8 % 256, q % 256)

/-- The luminosity of a pixel in thousandths, after ITU-R BT.601. -/
def luma1000 (q : Nat) : Nat := 299 * (rgb q).1 + 587 * (rgb q).2.1 + 114 * (rgb q).2.2

/-- What is used of the floating point conversions of single pixels: the result is not above the exact value, and at most one below it. (The sums of
three products are at most a little off; then the fraction is cut off.) -/
structure Rounds (lum : Luminosity) : Prop where
  gray : ∀ q, 1000 * (lum.gray q).toNat ≤ luma1000 q ∧ luma1000 q ≤ 1000 * (lum.gray q).toNat + 1000
  black : ∀ q, 1000 * (lum.black q).toNat + luma1000 q ≤ 255000 ∧ 255000 ≤ 1000 * (lum.black q).toNat + luma1000 q + 1000

end Spec

theorem luma_le (q : Nat) : Spec.luma1000 q ≤ 255000 := by
  unfold Spec.luma1000 Spec.rgb
  have h1 : q / 2 ^ 16 % 256 < 256 := Nat.mod_lt _ (by decide)
  have h2 : q / 2 ^ 8 % 256 < 256 := Nat.mod_lt _ (by decide)
  have h3 : q % 256 < 256 := Nat.mod_lt _ (by decide)
  simp only; omega

/-! ## The sum of the products -/

theorem white_gray : rgbGray 0xffffff = 255 := by decide +kernel

theorem black_gray : rgbGray 0 = 0 := by decide +kernel

theorem rgbGray_nonneg (p : Rgb) : 0 ≤ rgbGray p := by
  have h1 : (0 : Rat) ≤ dbl (299 / 1000) := dbl_nonneg (by norm_num)
  have h2 : (0 : Rat) ≤ dbl (587 / 1000) := dbl_nonneg (by norm_num)
  have h3 : (0 : Rat) ≤ dbl (114 / 1000) := dbl_nonneg (by norm_num)
  unfold rgbGray
  refine dbl_nonneg (add_nonneg (dbl_nonneg (add_nonneg (dbl_nonneg ?_) (dbl_nonneg ?_))) (dbl_nonneg ?_)) <;> positivity

theorem rgbGray_le (p : Rgb) : rgbGray p ≤ 255 := by
  have h1 : (0 : Rat) ≤ dbl (299 / 1000) := dbl_nonneg (by norm_num)
  have h2 : (0 : Rat) ≤ dbl (587 / 1000) := dbl_nonneg (by norm_num)
  have h3 : (0 : Rat) ≤ dbl (114 / 1000) := dbl_nonneg (by norm_num)
  have c : ∀ n : Nat, n < 256 → (n : Rat) ≤ ((255 : Nat) : Rat) := fun n h => by exact_mod_cast (by omega : n ≤ 255)
  rw [← white_gray]
  unfold rgbGray
  have er : red 0xffffff = 255 := rfl
  have eg : green 0xffffff = 255 := rfl
  have eb : blue 0xffffff = 255 := rfl
  rw [er, eg, eb]
  refine dbl_mono' (add_le_add (dbl_mono' (add_le_add (dbl_mono' ?_) (dbl_mono' ?_))) (dbl_mono' ?_))
  · exact mul_le_mul_of_nonneg_right (c _ (Nat.mod_lt _ (by decide))) h1
  · exact mul_le_mul_of_nonneg_right (c _ (Nat.mod_lt _ (by decide))) h2
  · exact mul_le_mul_of_nonneg_right (c _ (Nat.mod_lt _ (by decide))) h3

/-- The sum is as exact as can be. -/
theorem rgbGray_near (p : Rgb) : |rgbGray p - (Spec.luma1000 p : Rat) / 1000| ≤ 1 / 2 ^ 40 := by
  have er : Spec.luma1000 p = 299 * red p + 587 * green p + 114 * blue p := rfl
  have c : ∀ n : Nat, n < 256 → (0 : Rat) ≤ n ∧ (n : Rat) ≤ 255 := fun n h => ⟨by positivity, by exact_mod_cast (by omega : n ≤ 255)⟩
  obtain ⟨r0, r1⟩ := c (red p) (Nat.mod_lt _ (by decide))
  obtain ⟨g0, g1⟩ := c (green p) (Nat.mod_lt _ (by decide))
  obtain ⟨b0, b1⟩ := c (blue p) (Nat.mod_lt _ (by decide))
  rw [er]
  push_cast
  unfold rgbGray
  generalize (red p : Rat) = r at *
  generalize (green p : Rat) = g at *
  generalize (blue p : Rat) = b at *
  have k1 := dbl_bounds (q := 299 / 1000) (by norm_num)
  have k2 := dbl_bounds (q := 587 / 1000) (by norm_num)
  have k3 := dbl_bounds (q := 114 / 1000) (by norm_num)
  generalize dbl (299 / 1000) = x at *
  generalize dbl (587 / 1000) = y at *
  generalize dbl (114 / 1000) = z at *
  have rx : r * (299 / 1000 * (1 - 1 / 2 ^ 53)) ≤ r * x ∧ r * x ≤ r * (299 / 1000 * (1 + 1 / 2 ^ 53)) := ⟨mul_le_mul_of_nonneg_left k1.1 r0, mul_le_mul_of_nonneg_left k1.2 r0⟩
  have gy : g * (587 / 1000 * (1 - 1 / 2 ^ 53)) ≤ g * y ∧ g * y ≤ g * (587 / 1000 * (1 + 1 / 2 ^ 53)) := ⟨mul_le_mul_of_nonneg_left k2.1 g0, mul_le_mul_of_nonneg_left k2.2 g0⟩
  have bz : b * (114 / 1000 * (1 - 1 / 2 ^ 53)) ≤ b * z ∧ b * z ≤ b * (114 / 1000 * (1 + 1 / 2 ^ 53)) := ⟨mul_le_mul_of_nonneg_left k3.1 b0, mul_le_mul_of_nonneg_left k3.2 b0⟩
  generalize r * x = rx' at *
  generalize g * y = gy' at *
  generalize b * z = bz' at *
  have d1 := dbl_bounds (q := rx') (by linarith)
  have d2 := dbl_bounds (q := gy') (by linarith)
  have d3 := dbl_bounds (q := bz') (by linarith)
  generalize dbl rx' = u at *
  generalize dbl gy' = v at *
  generalize dbl bz' = w at *
  have d4 := dbl_bounds (q := u + v) (by linarith)
  generalize dbl (u + v) = uv at *
  have d5 := dbl_bounds (q := uv + w) (by linarith)
  generalize dbl (uv + w) = s at *
  rw [abs_le]
  constructor <;> linarith

/-! ## To integers -/

theorem truncate_int (n : Int) : truncate (n : Rat) = n := by
  unfold truncate
  split
  · exact Rat.floor_intCast n
  · have : (-(n : Rat)).floor = -n := by
      have : -(n : Rat) = ((-n : Int) : Rat) := by push_cast; rfl
      rw [this]; exact Rat.floor_intCast _
    rw [this]; omega

theorem le_truncate {n : Int} {q : Rat} (h : (n : Rat) ≤ q) : n ≤ truncate q := by
  unfold truncate
  split
  · exact Int.le_floor.2 h
  · rename_i hq
    have h1 : (((-q).floor : Int) : Rat) ≤ -q := Int.floor_le _
    have : (((-q).floor : Int) : Rat) ≤ ((-n : Int) : Rat) := by push_cast; linarith
    have : (-q).floor ≤ -n := by exact_mod_cast this
    omega

theorem truncate_le {n : Int} {q : Rat} (h : q ≤ (n : Rat)) : truncate q ≤ n := by
  unfold truncate
  split
  · have h1 : ((q.floor : Int) : Rat) ≤ q := Int.floor_le _
    have : ((q.floor : Int) : Rat) ≤ (n : Rat) := by linarith
    exact_mod_cast this
  · have : -n ≤ (-q).floor := Int.le_floor.2 (show ((-n : Int) : Rat) ≤ -q by push_cast; linarith)
    omega

theorem truncate_near {q : Rat} (h : 0 ≤ q) : (truncate q : Rat) ≤ q ∧ q < truncate q + 1 ∧ 0 ≤ truncate q := by
  unfold truncate
  rw [if_pos h]
  exact ⟨Int.floor_le q, Int.lt_floor_add_one q, Int.floor_nonneg.2 h⟩

/-- **C49, the sums of the code** are as the dithering needs them. -/
theorem C49_code_sums : Spec.Sums codeLuminosity.plus := by
  have hi : ∀ d : Int, -2147483648 ≤ d → d ≤ 2147483647 → dbl (d : Rat) = d ∧ dbl ((d + 255 : Int) : Rat) = ((d + 255 : Int) : Rat) := by
    intro d h1 h2
    exact ⟨dbl_int (abs_lt.2 ⟨by omega, by omega⟩), dbl_int (abs_lt.2 ⟨by omega, by omega⟩)⟩
  constructor
  · intro p d h1 h2
    apply le_truncate
    rw [← (hi d h1 h2).1]
    refine dbl_mono' ?_
    rw [(hi d h1 h2).1]
    linarith [rgbGray_nonneg p]
  · intro p d h1 h2
    apply truncate_le
    rw [← (hi d h1 h2).2]
    refine dbl_mono' ?_
    push_cast
    linarith [rgbGray_le p]
  · intro d h1 h2
    show d + 254 ≤ truncate (dbl (rgbGray 0xffffff + d))
    rw [white_gray, show (255 : Rat) + d = ((d + 255 : Int) : Rat) by push_cast; ring, (hi d h1 h2).2, truncate_int]
    omega
  · intro d h1 h2
    show truncate (dbl (rgbGray 0 + d)) = d
    rw [black_gray, zero_add, (hi d h1 h2).1, truncate_int]

theorem byte_of {n : Int} (h0 : 0 ≤ n) (h1 : n ≤ 255) : (((UInt8.ofNat n.toNat).toNat : Nat) : Int) = n := by
  rw [UInt8.toNat_ofNat']
  omega

/-- **C62, the luminosities of the code** are the exact ones, cut off, or one less. -/
theorem C62_code_rounds : Spec.Rounds codeLuminosity := by
  constructor
  · intro q
    have hn := abs_le.1 (rgbGray_near q)
    have h0 := rgbGray_nonneg q
    have h1 := rgbGray_le q
    obtain ⟨t1, t2, t3⟩ := truncate_near h0
    have t4 : truncate (rgbGray q) ≤ 255 := truncate_le (by exact_mod_cast h1)
    have hb : (((codeLuminosity.gray q).toNat : Nat) : Int) = truncate (rgbGray q) := byte_of t3 t4
    generalize (codeLuminosity.gray q).toNat = n at *
    have hb' : (truncate (rgbGray q) : Rat) = (n : Rat) := by rw [← hb]; rfl
    rw [hb'] at t1 t2
    constructor
    · have : ((1000 * n : Nat) : Rat) < ((Spec.luma1000 q + 1 : Nat) : Rat) := by push_cast; linarith
      have : 1000 * n < Spec.luma1000 q + 1 := by exact_mod_cast this
      omega
    · have : ((Spec.luma1000 q : Nat) : Rat) < ((1000 * n + 1000 + 1 : Nat) : Rat) := by push_cast; linarith
      have : Spec.luma1000 q < 1000 * n + 1000 + 1 := by exact_mod_cast this
      omega
  · intro q
    have hn := abs_le.1 (rgbGray_near q)
    have h0 := rgbGray_nonneg q
    have h1 := rgbGray_le q
    have hd := dbl_bounds (q := 255 - rgbGray q) (by linarith)
    obtain ⟨t1, t2, t3⟩ := truncate_near (q := dbl (255 - rgbGray q)) (dbl_nonneg (by linarith))
    have t4 : truncate (dbl (255 - rgbGray q)) ≤ 255 := truncate_le (by
      have := dbl_le (n := 255) (q := 255 - rgbGray q) (by norm_num) (by linarith) (by push_cast; linarith)
      exact_mod_cast this)
    have hb : (((codeLuminosity.black q).toNat : Nat) : Int) = truncate (dbl (255 - rgbGray q)) := byte_of t3 t4
    generalize (codeLuminosity.black q).toNat = n at *
    have hb' : (truncate (dbl (255 - rgbGray q)) : Rat) = (n : Rat) := by rw [← hb]; rfl
    rw [hb'] at t1 t2
    constructor
    · have : ((1000 * n + Spec.luma1000 q : Nat) : Rat) < ((255000 + 1 : Nat) : Rat) := by push_cast; linarith
      have : 1000 * n + Spec.luma1000 q < 255000 + 1 := by exact_mod_cast this
      omega
    · have : ((255000 : Nat) : Rat) < ((1000 * n + Spec.luma1000 q + 1000 + 1 : Nat) : Rat) := by push_cast; linarith
      have : 255000 < 1000 * n + Spec.luma1000 q + 1000 + 1 := by exact_mod_cast this
      omega

/-- **C62, the ends of the scale** in the code: white is white and black is black, exactly. -/
theorem C62_code_ends : codeLuminosity.gray 0 = 0 ∧ codeLuminosity.gray 0xffffff = 255 ∧ codeLuminosity.black 0xffffff = 0 ∧ codeLuminosity.black 0 = 255 := by
  decide +kernel

/-- **C62, where it fails: gray levels.** The sum falls short of whole numbers: medium gray becomes 127 in place of 128. -/
theorem C62_level_false : ¬ ∀ n : Nat, n < 256 → (codeLuminosity.gray (n * 65536 + n * 256 + n)).toNat = n := by
  intro h
  have := h 128 (by decide)
  revert this
  decide +kernel

/-- **C62, where it fails: gray and black.** A gray level and its ink do not add up to 255. -/
theorem C62_complement_false : ¬ ∀ q : Nat, (codeLuminosity.gray q).toNat + (codeLuminosity.black q).toNat = 255 := by
  intro h
  have := h 0x010101
  revert this
  decide +kernel

end Verif.Pdf
