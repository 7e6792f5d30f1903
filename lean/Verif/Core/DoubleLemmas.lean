import Verif.Core.Double
import Mathlib.Data.Rat.Floor
import Mathlib.Tactic.Linarith
import Mathlib.Tactic.FieldSimp
import Mathlib.Tactic.Ring
import Mathlib.Tactic.NormNum
import Mathlib.Tactic.Positivity

/-! # Rounding to doubles -/

namespace Verif

theorem expo_spec {q : Rat} (hq : q ≠ 0) : (2 : Rat) ^ expo q ≤ |q| ∧ |q| < (2 : Rat) ^ (expo q + 1) := by
  have hd : 0 < q.den := q.den_pos
  have hn : q.num.natAbs ≠ 0 := by simpa using hq
  have hd' : (0 : Rat) < q.den := by exact_mod_cast hd
  have hab : |q| = (q.num.natAbs : Rat) / q.den := by
    conv_lhs => rw [← Rat.num_div_den q]
    rw [abs_div, abs_of_pos hd', ← Int.cast_abs, Int.abs_eq_natAbs, Int.cast_natCast]
  have n1 : (2 : Rat) ^ (Nat.log2 q.num.natAbs) ≤ q.num.natAbs := by exact_mod_cast Nat.log2_self_le hn
  have n2 : (q.num.natAbs : Rat) < (2 : Rat) ^ (Nat.log2 q.num.natAbs + 1) := by exact_mod_cast Nat.lt_log2_self
  have d1 : (2 : Rat) ^ (Nat.log2 q.den) ≤ q.den := by exact_mod_cast Nat.log2_self_le hd.ne'
  have d2 : (q.den : Rat) < (2 : Rat) ^ (Nat.log2 q.den + 1) := by exact_mod_cast Nat.lt_log2_self
  rw [hab]
  unfold expo
  simp only []
  generalize hN : (q.num.natAbs : Rat) = N at *
  generalize hD : (q.den : Rat) = D at *
  generalize Nat.log2 q.num.natAbs = a at *
  generalize Nat.log2 q.den = b at *
  have h2 : (2 : Rat) ≠ 0 := by norm_num
  have eab : (2 : Rat) ^ ((a : Int) - (b : Int)) = (2 : Rat) ^ a / (2 : Rat) ^ b := by
    rw [zpow_sub₀ h2, zpow_natCast, zpow_natCast]
  have pa : (0 : Rat) < 2 ^ a := by positivity
  have pb : (0 : Rat) < 2 ^ b := by positivity
  split
  · rename_i hlt
    rw [sub_add_cancel]
    constructor
    · rw [zpow_sub₀ h2, eab, zpow_one, div_div, div_le_div_iff₀ (by positivity) hd', ]
      rw [pow_succ] at d2
      nlinarith
    · rw [div_lt_iff₀ hd']; exact hlt
  · rename_i hge
    constructor
    · rw [le_div_iff₀ hd']; exact not_lt.mp hge
    · rw [zpow_add₀ h2, eab, zpow_one, div_lt_iff₀ hd', div_mul_eq_mul_div, div_mul_eq_mul_div, lt_div_iff₀ pb]
      rw [pow_succ] at n2
      nlinarith

theorem roundEven_near (x : Rat) : |(roundEven x : Rat) - x| ≤ 1 / 2 := by
  have h1 := Int.floor_le x
  have h2 := Int.lt_floor_add_one x
  change ((x.floor : Int) : Rat) ≤ x at h1
  change x < ((x.floor : Int) : Rat) + 1 at h2
  rw [abs_le]
  unfold roundEven
  split
  · constructor <;> linarith
  · split
    · push_cast; constructor <;> linarith
    · split
      · constructor <;> linarith
      · push_cast; constructor <;> linarith

theorem roundEven_int (n : Int) : roundEven (n : Rat) = n := by
  have : (n : Rat).floor = n := Rat.floor_intCast n
  unfold roundEven
  rw [this, if_pos (by norm_num)]

theorem roundEven_mono {x y : Rat} (h : x ≤ y) : roundEven x ≤ roundEven y := by
  have hf : x.floor ≤ y.floor := Int.floor_le_floor h
  rcases lt_or_eq_of_le hf with hlt | heq
  · have hx : roundEven x ≤ x.floor + 1 := by
      unfold roundEven
      split
      · omega
      · split
        · omega
        · split <;> omega
    have hy : y.floor ≤ roundEven y := by
      unfold roundEven
      split
      · omega
      · split
        · omega
        · split <;> omega
    omega
  · unfold roundEven
    rw [heq]
    have hq : (x : Rat) - y.floor ≤ y - y.floor := by linarith
    by_cases h1 : x - y.floor < 1 / 2
    · rw [if_pos h1]
      split
      · omega
      · split
        · omega
        · split <;> omega
    · rw [if_neg h1, if_neg (show ¬ y - (y.floor : Rat) < 1 / 2 by linarith)]
      by_cases h2 : 1 / 2 < x - y.floor
      · rw [if_pos h2, if_pos (show 1 / 2 < y - (y.floor : Rat) by linarith)]
      · rw [if_neg h2]
        by_cases h3 : 1 / 2 < y - (y.floor : Rat)
        · rw [if_pos h3]; split <;> omega
        · rw [if_neg h3]

theorem dbl_zero : dbl 0 = 0 := by unfold dbl; rw [if_pos rfl]

/-- The relative error of rounding. -/
theorem dbl_err (q : Rat) : |dbl q - q| ≤ |q| / 2 ^ 53 := by
  by_cases hq : q = 0
  · subst hq; rw [dbl_zero]; norm_num
  · unfold dbl
    rw [if_neg hq]
    obtain ⟨h1, _⟩ := expo_spec hq
    have h2 : (2 : Rat) ≠ 0 := by norm_num
    have hu : (2 : Rat) ^ (expo q - 52) = (2 : Rat) ^ expo q / 2 ^ 52 := by
      rw [zpow_sub₀ h2]; norm_cast
    have hp : (0 : Rat) < (2 : Rat) ^ (expo q - 52) := zpow_pos (by norm_num) _
    have hr := roundEven_near (q / (2 : Rat) ^ (expo q - 52))
    generalize hU : (2 : Rat) ^ (expo q - 52) = u at *
    have e : (roundEven (q / u) : Rat) * u - q = ((roundEven (q / u) : Rat) - q / u) * u := by field_simp
    rw [e, abs_mul, abs_of_pos hp]
    calc _ ≤ 1 / 2 * u := by nlinarith
      _ ≤ |q| / 2 ^ 53 := by rw [hu]; norm_num; linarith

theorem flt_err (q : Rat) : |flt q - q| ≤ |q| / 2 ^ 24 := by
  by_cases hq : q = 0
  · subst hq; unfold flt; norm_num
  · unfold flt
    rw [if_neg hq]
    obtain ⟨h1, _⟩ := expo_spec hq
    have h2 : (2 : Rat) ≠ 0 := by norm_num
    have hu : (2 : Rat) ^ (expo q - 23) = (2 : Rat) ^ expo q / 2 ^ 23 := by
      rw [zpow_sub₀ h2]; norm_cast
    have hp : (0 : Rat) < (2 : Rat) ^ (expo q - 23) := zpow_pos (by norm_num) _
    have hr := roundEven_near (q / (2 : Rat) ^ (expo q - 23))
    generalize hU : (2 : Rat) ^ (expo q - 23) = u at *
    have e : (roundEven (q / u) : Rat) * u - q = ((roundEven (q / u) : Rat) - q / u) * u := by field_simp
    rw [e, abs_mul, abs_of_pos hp]
    calc _ ≤ 1 / 2 * u := by nlinarith
      _ ≤ |q| / 2 ^ 24 := by rw [hu]; norm_num; linarith

theorem dbl_bounds {q : Rat} (hq : 0 ≤ q) : q * (1 - 1 / 2 ^ 53) ≤ dbl q ∧ dbl q ≤ q * (1 + 1 / 2 ^ 53) := by
  have h := dbl_err q
  rw [abs_of_nonneg hq, abs_le] at h
  constructor <;> linarith

/-- Numbers with at most 53 binary digits are not changed. -/
theorem dbl_exact {m : Int} {k : Int} (hm : |m| < 2 ^ 53) : dbl ((m : Rat) * (2 : Rat) ^ k) = (m : Rat) * (2 : Rat) ^ k := by
  have h2 : (2 : Rat) ≠ 0 := by norm_num
  by_cases h0 : m = 0
  · subst h0; simp [dbl_zero]
  have hk : (0 : Rat) < (2 : Rat) ^ k := zpow_pos (by norm_num) _
  have hq : (m : Rat) * (2 : Rat) ^ k ≠ 0 := mul_ne_zero (by exact_mod_cast h0) hk.ne'
  unfold dbl
  rw [if_neg hq]
  obtain ⟨h1, _⟩ := expo_spec hq
  generalize expo ((m : Rat) * (2 : Rat) ^ k) = e at *
  have hlt : (2 : Rat) ^ e < (2 : Rat) ^ (53 + k) := by
    refine lt_of_le_of_lt h1 ?_
    rw [abs_mul, abs_of_pos hk, zpow_add₀ h2]
    have : |(m : Rat)| < 2 ^ 53 := by exact_mod_cast hm
    have e53 : (2 : Rat) ^ (53 : Int) = 2 ^ 53 := by norm_cast
    rw [e53]
    nlinarith
  have he : e < 53 + k := (zpow_lt_zpow_iff_right₀ (by norm_num)).mp hlt
  obtain ⟨n, hn⟩ : ∃ n : Nat, k = (e - 52) + n := ⟨(k - (e - 52)).toNat, by omega⟩
  have hx : (m : Rat) * (2 : Rat) ^ k / (2 : Rat) ^ (e - 52) = ((m * 2 ^ n : Int) : Rat) := by
    rw [hn, zpow_add₀ h2, zpow_natCast]
    have : (2 : Rat) ^ (e - 52) ≠ 0 := (zpow_pos (by norm_num) _ : (0 : Rat) < (2 : Rat) ^ (e - 52)).ne'
    push_cast
    field_simp
  rw [hx, roundEven_int, ← hx]
  field_simp

theorem dbl_int {n : Int} (h : |n| < 2 ^ 53) : dbl (n : Rat) = n := by
  have := dbl_exact (k := 0) h
  simpa using this

theorem dbl_nat {n : Nat} (h : n < 2 ^ 53) : dbl (n : Rat) = n := by
  have := dbl_int (n := (n : Int)) (by rw [abs_of_nonneg (by omega)]; exact_mod_cast h)
  exact_mod_cast this

/-- A value is at least (at most) the power of two below (above). -/
theorem dbl_expo {q : Rat} (hq : 0 < q) : (2 : Rat) ^ expo q ≤ dbl q ∧ dbl q ≤ (2 : Rat) ^ (expo q + 1) := by
  have h2 : (2 : Rat) ≠ 0 := by norm_num
  obtain ⟨h1, h3⟩ := expo_spec hq.ne'
  rw [abs_of_pos hq] at h1 h3
  unfold dbl
  rw [if_neg hq.ne']
  have hu : (0 : Rat) < (2 : Rat) ^ (expo q - 52) := zpow_pos (by norm_num) _
  have e1 : (2 : Rat) ^ expo q = ((2 ^ 52 : Int) : Rat) * (2 : Rat) ^ (expo q - 52) := by
    rw [zpow_sub₀ h2]; push_cast; norm_cast; field_simp
  have e2 : (2 : Rat) ^ (expo q + 1) = ((2 ^ 53 : Int) : Rat) * (2 : Rat) ^ (expo q - 52) := by
    rw [zpow_add₀ h2, e1, zpow_one]; push_cast; ring
  have r1 : (2 ^ 52 : Int) ≤ roundEven (q / (2 : Rat) ^ (expo q - 52)) := by
    rw [← roundEven_int (2 ^ 52)]
    apply roundEven_mono
    rw [le_div_iff₀ hu, ← e1]; exact h1
  have r2 : roundEven (q / (2 : Rat) ^ (expo q - 52)) ≤ (2 ^ 53 : Int) := by
    rw [← roundEven_int (2 ^ 53)]
    apply roundEven_mono
    rw [div_le_iff₀ hu, ← e2]; exact h3.le
  constructor
  · rw [e1]; exact mul_le_mul_of_nonneg_right (by exact_mod_cast r1) hu.le
  · rw [e2]; exact mul_le_mul_of_nonneg_right (by exact_mod_cast r2) hu.le

theorem dbl_nonneg {q : Rat} (hq : 0 ≤ q) : 0 ≤ dbl q := by
  have := (dbl_bounds hq).1
  have : 0 ≤ q * (1 - 1 / 2 ^ 53) := mul_nonneg hq (by norm_num)
  linarith

theorem dbl_mono {x y : Rat} (hx : 0 ≤ x) (h : x ≤ y) : dbl x ≤ dbl y := by
  rcases hx.eq_or_lt with rfl | hx0
  · rw [dbl_zero]; exact dbl_nonneg h
  have hy0 : 0 < y := lt_of_lt_of_le hx0 h
  have h2 : (2 : Rat) ≠ 0 := by norm_num
  have ex := expo_spec hx0.ne'
  have ey := expo_spec hy0.ne'
  rw [abs_of_pos hx0] at ex
  rw [abs_of_pos hy0] at ey
  have hle : expo x ≤ expo y := by
    have : (2 : Rat) ^ expo x < (2 : Rat) ^ (expo y + 1) := lt_of_le_of_lt (le_trans ex.1 h) ey.2
    have := (zpow_lt_zpow_iff_right₀ (by norm_num : (1 : Rat) < 2)).mp this
    omega
  rcases hle.lt_or_eq with hlt | heq
  · calc dbl x ≤ (2 : Rat) ^ (expo x + 1) := (dbl_expo hx0).2
      _ ≤ (2 : Rat) ^ expo y := (zpow_le_zpow_iff_right₀ (by norm_num)).mpr (by omega)
      _ ≤ dbl y := (dbl_expo hy0).1
  · unfold dbl
    rw [if_neg hx0.ne', if_neg hy0.ne', heq]
    have hu : (0 : Rat) < (2 : Rat) ^ (expo y - 52) := zpow_pos (by norm_num) _
    apply mul_le_mul_of_nonneg_right _ hu.le
    have := roundEven_mono (div_le_div_of_nonneg_right h hu.le)
    exact_mod_cast this

theorem roundEven_neg (x : Rat) : roundEven (-x) = -roundEven x := by
  by_cases hx : x = x.floor
  · rw [hx, roundEven_int, show -((x.floor : Int) : Rat) = ((-x.floor : Int) : Rat) by push_cast; rfl, roundEven_int]
  · have h1 : (x.floor : Rat) ≤ x := Int.floor_le x
    have h2 : x < (x.floor : Rat) + 1 := Int.lt_floor_add_one x
    have h3 : (x.floor : Rat) < x := lt_of_le_of_ne h1 (Ne.symm hx)
    have e : (-x).floor = -x.floor - 1 := by
      have : ⌊-x⌋ = -x.floor - 1 := by
        rw [Int.floor_eq_iff]
        push_cast
        constructor <;> linarith
      exact this
    unfold roundEven
    rw [e]
    push_cast
    by_cases a : x - x.floor < 1 / 2
    · rw [if_pos a, if_neg (by linarith), if_pos (by linarith)]; omega
    · rw [if_neg a]
      by_cases b : 1 / 2 < x - x.floor
      · rw [if_pos b, if_pos (by linarith)]; omega
      · rw [if_neg b, if_neg (by linarith), if_neg (by linarith)]
        by_cases c : x.floor % 2 = 0
        · rw [if_pos c, if_neg (by omega)]; omega
        · rw [if_neg c, if_pos (by omega)]; omega

theorem expo_neg (q : Rat) : expo (-q) = expo q := by
  unfold expo
  rw [Rat.num_neg_eq_neg_num, Rat.den_neg_eq_den, Int.natAbs_neg]

theorem dbl_neg (q : Rat) : dbl (-q) = -dbl q := by
  unfold dbl
  by_cases h : q = 0
  · subst h; simp
  · rw [if_neg h, if_neg (neg_ne_zero.2 h), expo_neg, neg_div, roundEven_neg]
    push_cast
    ring

theorem dbl_mono' {x y : Rat} (h : x ≤ y) : dbl x ≤ dbl y := by
  rcases le_total 0 x with hx | hx
  · exact dbl_mono hx h
  · rcases le_total 0 y with hy | hy
    · have h1 := dbl_nonneg (q := -x) (by linarith)
      rw [dbl_neg] at h1
      exact le_trans (by linarith) (dbl_nonneg hy)
    · have := dbl_mono (x := -y) (y := -x) (by linarith) (by linarith)
      rw [dbl_neg, dbl_neg] at this
      linarith

/-- What is at least a whole number stays so. -/
theorem le_dbl {n : Nat} {q : Rat} (hn : n < 2 ^ 53) (h : (n : Rat) ≤ q) : (n : Rat) ≤ dbl q := by
  rw [← dbl_nat hn]
  exact dbl_mono (by positivity) h

theorem dbl_le {n : Nat} {q : Rat} (hn : n < 2 ^ 53) (hq : 0 ≤ q) (h : q ≤ n) : dbl q ≤ n := by
  rw [← dbl_nat hn]
  exact dbl_mono hq h

theorem roundAway_near (q : Rat) : |(roundAway q : Rat) - q| ≤ 1 / 2 := by
  rw [abs_le]
  unfold roundAway
  split
  · have h1 := Int.floor_le (q + 1 / 2)
    have h2 := Int.lt_floor_add_one (q + 1 / 2)
    change (((q + 1 / 2).floor : Int) : Rat) ≤ _ at h1
    change _ < (((q + 1 / 2).floor : Int) : Rat) + 1 at h2
    constructor <;> linarith
  · have h1 := Int.floor_le (-q + 1 / 2)
    have h2 := Int.lt_floor_add_one (-q + 1 / 2)
    change (((-q + 1 / 2).floor : Int) : Rat) ≤ _ at h1
    change _ < (((-q + 1 / 2).floor : Int) : Rat) + 1 at h2
    push_cast
    constructor <;> linarith

end Verif
