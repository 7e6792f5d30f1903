import Verif.Params.PaperLemmas
import Verif.Core.DoubleLemmas

/-! # Paper sizes as doubles -/

namespace Verif

theorem digitsVal_lt_pow {f : Bytes} (hf : ∀ b ∈ f, isDigit b = true) : digitsVal f < 10 ^ f.length := by
  have key : ∀ (f : Bytes), (∀ b ∈ f, isDigit b = true) → ∀ n m : Nat, n < m →
      f.foldl (fun acc b => acc * 10 + (b.toNat - 48)) n < m * 10 ^ f.length := by
    intro f
    induction f with
    | nil => intro _ n m h; simpa using h
    | cons c f ih =>
      intro hf n m h
      simp only [List.foldl_cons, List.length_cons]
      have hc : c.toNat - 48 ≤ 9 := by
        have := hf c (List.mem_cons_self ..)
        simp only [isDigit, decide_eq_true_eq, UInt8.le_iff_toNat_le] at this
        have h2 : (57 : UInt8).toNat = 57 := rfl
        omega
      have := ih (fun b hb => hf b (List.mem_cons_of_mem _ hb)) (n * 10 + (c.toNat - 48)) (m * 10) (by omega)
      calc _ < m * 10 * 10 ^ f.length := this
        _ = m * 10 ^ (f.length + 1) := by rw [Nat.pow_succ]; ring
  have := key f hf 0 1 (by omega)
  simpa [digitsVal] using this

theorem decimalValue_eq (i f : Bytes) : decimalValue i f = (digitsVal i : Rat) + (digitsVal f : Rat) / (10 : Rat) ^ f.length := by
  rw [rat_decimal, decimalValue, digitsVal_append]

theorem decimalDouble_near (i f : Bytes) : Near (decimalDouble i f) (decimalValue i f) := by
  unfold decimalDouble Near
  rw [decimalValue_eq]
  have hi : (0 : Rat) ≤ digitsVal i := by exact_mod_cast Nat.zero_le _
  have hd : (0 : Rat) ≤ digitsVal f := by exact_mod_cast Nat.zero_le _
  split
  · rename_i hf
    subst hf
    have hz : (digitsVal [] : Rat) / (10 : Rat) ^ ([] : Bytes).length = 0 := by simp [digitsVal]
    rw [hz, add_zero]
    have := dbl_bounds hi
    constructor <;> nlinarith
  · generalize (digitsVal i : Rat) = a at *
    generalize (digitsVal f : Rat) = d at *
    have hp : (0 : Rat) < (10 : Rat) ^ f.length := by positivity
    generalize (10 : Rat) ^ f.length = p at *
    obtain ⟨a1, a2⟩ := dbl_bounds hi
    obtain ⟨d1, d2⟩ := dbl_bounds hd
    obtain ⟨p1, p2⟩ := dbl_bounds hp.le
    have hdp : (0 : Rat) ≤ d / p := div_nonneg hd hp.le
    have hp0 : 0 < dbl p := by nlinarith
    -- the quotient
    have q1 : d / p * (1 - 3 / 2 ^ 53) ≤ dbl d / dbl p := by
      rw [le_div_iff₀ hp0]
      calc d / p * (1 - 3 / 2 ^ 53) * dbl p ≤ d / p * (1 - 3 / 2 ^ 53) * (p * (1 + 1 / 2 ^ 53)) := by
            apply mul_le_mul_of_nonneg_left p2; apply mul_nonneg hdp; norm_num
        _ = d * ((1 - 3 / 2 ^ 53) * (1 + 1 / 2 ^ 53)) := by field_simp
        _ ≤ d * (1 - 1 / 2 ^ 53) := by apply mul_le_mul_of_nonneg_left _ hd; norm_num
        _ ≤ dbl d := d1
    have q2 : dbl d / dbl p ≤ d / p * (1 + 3 / 2 ^ 53) := by
      rw [div_le_iff₀ hp0]
      calc dbl d ≤ d * (1 + 1 / 2 ^ 53) := d2
        _ ≤ d * ((1 + 3 / 2 ^ 53) * (1 - 1 / 2 ^ 53)) := by apply mul_le_mul_of_nonneg_left _ hd; norm_num
        _ = d / p * (1 + 3 / 2 ^ 53) * (p * (1 - 1 / 2 ^ 53)) := by field_simp
        _ ≤ d / p * (1 + 3 / 2 ^ 53) * dbl p := by
            apply mul_le_mul_of_nonneg_left p1; apply mul_nonneg hdp; norm_num
    generalize d / p = r at *
    have hq0 : 0 ≤ dbl d / dbl p := le_trans (mul_nonneg hdp (by norm_num)) q1
    generalize dbl d / dbl p = q at *
    obtain ⟨b1, b2⟩ := dbl_bounds hq0
    have hs : 0 ≤ dbl a + dbl q := add_nonneg (dbl_nonneg hi) (dbl_nonneg hq0)
    obtain ⟨s1, s2⟩ := dbl_bounds hs
    have t1 : (a + r) * (1 - 5 / 2 ^ 53) ≤ dbl a + dbl q := by nlinarith
    have t2 : dbl a + dbl q ≤ (a + r) * (1 + 5 / 2 ^ 53) := by nlinarith
    have hv : 0 ≤ a + r := add_nonneg hi hdp
    constructor
    · nlinarith
    · nlinarith

theorem dbl_dyadic {m k : Nat} (h : m < 2 ^ 53) {q : Rat} (hq : q * 2 ^ k = m) : dbl q = q := by
  have e : q = ((m : Int) : Rat) * (2 : Rat) ^ (-(k : Int)) := by
    rw [zpow_neg, zpow_natCast, ← div_eq_mul_inv, eq_div_iff (by positivity), hq]; norm_cast
  rw [e]
  exact dbl_exact (by rw [abs_of_nonneg (by omega)]; exact_mod_cast h)

theorem decimalDouble_short {i f : Bytes} (hf : ∀ b ∈ f, isDigit b = true) (h : Short i f) :
    decimalDouble i f = decimalValue i f := by
  obtain ⟨hl, n, k, hn, hv⟩ := h
  rw [decimalValue_eq] at hv ⊢
  unfold decimalDouble
  have hlt := digitsVal_lt_pow hf
  have hple : 10 ^ f.length ≤ 10 ^ 15 := Nat.pow_le_pow_right (by norm_num) hl
  have hp53 : 10 ^ f.length < 2 ^ 53 := lt_of_le_of_lt hple (by norm_num)
  have hd53 : digitsVal f < 2 ^ 53 := lt_trans hlt hp53
  have hpow : ((10 : Rat) ^ f.length) = ((10 ^ f.length : Nat) : Rat) := by norm_cast
  have hdp : (0 : Rat) ≤ (digitsVal f : Rat) / (10 : Rat) ^ f.length := by positivity
  have h2k : (1 : Rat) ≤ 2 ^ k := one_le_pow₀ (by norm_num)
  have hi0 : (0 : Rat) ≤ digitsVal i := by exact_mod_cast Nat.zero_le _
  have hile : (digitsVal i * 2 ^ k : Nat) ≤ n := by
    have : ((digitsVal i : Rat)) * 2 ^ k ≤ n := by
      rw [← hv]; nlinarith
    exact_mod_cast this
  have hi53 : digitsVal i < 2 ^ 53 := by
    have : digitsVal i * 1 ≤ digitsVal i * 2 ^ k := Nat.mul_le_mul_left _ (Nat.one_le_two_pow)
    omega
  split
  · rename_i hf0
    subst hf0
    have hz : (digitsVal [] : Rat) / (10 : Rat) ^ ([] : Bytes).length = 0 := by simp [digitsVal]
    rw [hz, add_zero, dbl_nat hi53]
  · rw [dbl_nat hi53, dbl_nat hd53, hpow, dbl_nat hp53, ← hpow]
    have hfr : (digitsVal f : Rat) / (10 : Rat) ^ f.length * 2 ^ k = ((n - digitsVal i * 2 ^ k : Nat) : Rat) := by
      rw [Nat.cast_sub hile]; push_cast; linarith
    rw [dbl_dyadic (m := n - digitsVal i * 2 ^ k) (k := k) (by omega) hfr, dbl_dyadic hn hv]

end Verif
