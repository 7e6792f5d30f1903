import Verif.Pdf.Scale
import Verif.Core.DoubleLemmas

/-! # Scaled pages -/

namespace Verif.Pdf

/-! ## Rounding -/

theorem floorQ (q : Rat) : ((q.floor : Int) : Rat) ≤ q ∧ q < (q.floor : Rat) + 1 := ⟨Int.floor_le q, Int.lt_floor_add_one q⟩

theorem floor_toNat {q : Rat} (h : 0 ≤ q) : ((q.floor.toNat : Nat) : Rat) ≤ q ∧ q < (q.floor.toNat : Rat) + 1 := by
  have hf : (0 : Int) ≤ q.floor := Int.floor_nonneg.2 h
  have e : ((q.floor.toNat : Nat) : Rat) = (q.floor : Rat) := by
    have : ((q.floor.toNat : Nat) : Int) = q.floor := Int.toNat_of_nonneg hf
    exact_mod_cast this
  rw [e]
  exact floorQ q

theorem roundAway_nonneg {q : Rat} (h : 0 ≤ q) : 0 ≤ roundAway q := by
  unfold roundAway
  rw [if_pos h]
  exact Int.floor_nonneg.2 (show (0 : Rat) ≤ q + 1 / 2 by linarith)

theorem roundAway_small {q : Rat} (h : 0 ≤ q) (h2 : q < 1 / 2) : roundAway q = 0 := by
  unfold roundAway
  rw [if_pos h]
  exact Int.floor_eq_zero_iff.2 ⟨show (0 : Rat) ≤ q + 1 / 2 by linarith, show q + 1 / 2 < 1 by linarith⟩

theorem flt_nonneg {q : Rat} (h : 0 ≤ q) : 0 ≤ flt q := by
  have := flt_err q
  rw [abs_of_nonneg h, abs_le] at this
  linarith

/-- `round2` gives whole hundredths, as near as doubles can be to the nearest. -/
theorem roundHundredth_near {m : Rat} (hm : 0 ≤ m) :
    ∃ n : Nat, roundHundredth m = dbl (n / 100) ∧ m * (1 - 1 / 2 ^ 53) - 1 / 200 ≤ (n : Rat) / 100 ∧ (n : Rat) / 100 ≤ m * (1 + 1 / 2 ^ 53) + 1 / 200 := by
  have h100 : (0 : Rat) ≤ m * 100 := by linarith
  have hb := dbl_bounds h100
  have hr := roundAway_near (dbl (m * 100))
  have h0 := roundAway_nonneg (dbl_nonneg h100)
  rw [abs_le] at hr
  obtain ⟨n, hn⟩ := Int.eq_ofNat_of_zero_le h0
  have e : ((roundAway (dbl (m * 100)) : Int) : Rat) = (n : Rat) := by rw [hn]; rfl
  refine ⟨n, ?_, ?_, ?_⟩
  · unfold roundHundredth; rw [e]
  · rw [e] at hr; linarith
  · rw [e] at hr; linarith

theorem roundHundredth_nonneg {m : Rat} (hm : 0 ≤ m) : 0 ≤ roundHundredth m := by
  obtain ⟨n, e, -⟩ := roundHundredth_near hm
  rw [e]
  exact dbl_nonneg (by positivity)

/-- what `round2` adds at most -/
theorem roundHundredth_le {m : Rat} (hm : 0 ≤ m) : roundHundredth m ≤ m * (1 + 1 / 2 ^ 51) + 1 / 200 * (1 + 1 / 2 ^ 53) := by
  obtain ⟨n, e, -, h⟩ := roundHundredth_near hm
  have h0 : (0 : Rat) ≤ n / 100 := by positivity
  have := (dbl_bounds h0).2
  rw [e]
  generalize (n : Rat) / 100 = x at *
  linarith

/-! ## One direction -/

/-- The offset for a length `w` that is scaled by `s` into `out`: the middle, but for half a step and the rounding. -/
theorem offset_near (out : Nat) {w s : Rat} (ha : 0 ≤ w * s) : |2 * (offset out w s : Rat) - (out - w * s)| ≤ 1 + (out + w * s) / 2 ^ 23 := by
  unfold offset
  have ho : (0 : Rat) ≤ out := by positivity
  generalize w * s = a at *
  generalize (out : Rat) = o at *
  have h1 := dbl_err a
  have h2 := dbl_err (o - dbl a)
  have h3 := dbl_err (dbl (o - dbl a) / 2)
  have h4 := flt_err (dbl (dbl (o - dbl a) / 2))
  have h5 := roundAway_near (flt (dbl (dbl (o - dbl a) / 2)))
  generalize (roundAway (flt (dbl (dbl (o - dbl a) / 2))) : Rat) = r at *
  generalize flt (dbl (dbl (o - dbl a) / 2)) = f at *
  generalize dbl (dbl (o - dbl a) / 2) = d3 at *
  generalize dbl (o - dbl a) = d2 at *
  generalize dbl a = d1 at *
  rw [abs_of_nonneg ha] at h1
  have b1 : |o - d1| ≤ o + a + a / 2 ^ 53 := by
    rw [abs_le] at h1 ⊢; constructor <;> linarith
  have b2 : |d2| ≤ (o + a) * (1 + 1 / 2 ^ 50) := by
    have := abs_sub_abs_le_abs_sub d2 (o - d1)
    linarith
  have e2 : |d2 / 2| = |d2| / 2 := by rw [abs_div]; norm_num
  rw [e2] at h3
  have b3 : |d3| ≤ (o + a) * (1 / 2 + 1 / 2 ^ 49) := by
    have := abs_sub_abs_le_abs_sub d3 (d2 / 2)
    rw [e2] at this
    linarith
  have c1 := abs_le.1 h1
  have c2 := abs_le.1 (le_trans h2 (div_le_div_of_nonneg_right b1 (by positivity)))
  have c3 := abs_le.1 (le_trans h3 (div_le_div_of_nonneg_right (div_le_div_of_nonneg_right b2 (by positivity)) (by positivity)))
  have c4 := abs_le.1 (le_trans h4 (div_le_div_of_nonneg_right b3 (by positivity)))
  have c5 := abs_le.1 h5
  rw [abs_le]
  constructor <;> linarith

/-- What is not larger is placed inside. -/
theorem offset_fits {out : Nat} {w s : Rat} (ho : out < 2 ^ 53) (ha : 0 ≤ w * s) (h : w * s ≤ out) :
    0 ≤ offset out w s ∧ (offset out w s : Rat) + w * s ≤ out + (out + w * s) / 2 ^ 23 := by
  have hn := offset_near out ha
  have h1 := dbl_le ho ha h
  have h2 : 0 ≤ dbl (out - dbl (w * s)) := dbl_nonneg (by linarith)
  have h3 : 0 ≤ dbl (dbl (out - dbl (w * s)) / 2) := dbl_nonneg (by linarith)
  have h4 := flt_nonneg h3
  have h0 : 0 ≤ offset out w s := roundAway_nonneg h4
  refine ⟨h0, ?_⟩
  have ho' : (0 : Rat) ≤ out := by positivity
  rcases Int.lt_or_le (offset out w s) 1 with hl | hl
  · have e : offset out w s = 0 := by omega
    rw [e]
    push_cast
    linarith
  · have : (1 : Rat) ≤ offset out w s := by exact_mod_cast hl
    rw [abs_le] at hn
    linarith

/-- What is larger by the rounding of the scale is nearly inside. -/
theorem offset_over {out : Nat} {w s m : Rat} (hw : 0 < w) (hm0 : 0 ≤ m) (hm : m ≤ dbl (out / w)) (hs : s = roundHundredth m) :
    -(w / 399 + 1 / 2) - (out + w * s) / 2 ^ 22 ≤ (offset out w s : Rat) ∧ (offset out w s : Rat) + w * s ≤ out + (w / 399 + 1 / 2) + (out + w * s) / 2 ^ 22 := by
  have hs0 : 0 ≤ s := hs ▸ roundHundredth_nonneg hm0
  have ha : 0 ≤ w * s := mul_nonneg hw.le hs0
  have hn := abs_le.1 (offset_near out ha)
  have ho : (0 : Rat) ≤ out / w := div_nonneg (by positivity) hw.le
  have h1 := (dbl_bounds ho).2
  have h2 := roundHundredth_le hm0
  rw [← hs] at h2
  have h3 : s ≤ (out / w) * (1 + 1 / 2 ^ 50) + 1 / 200 * (1 + 1 / 2 ^ 53) := by linarith
  have h4 := mul_le_mul_of_nonneg_left h3 hw.le
  have e : w * ((out / w : Rat) * (1 + 1 / 2 ^ 50) + 1 / 200 * (1 + 1 / 2 ^ 53)) = out * (1 + 1 / 2 ^ 50) + w * (1 / 200 * (1 + 1 / 2 ^ 53)) := by
    field_simp
  rw [e] at h4
  have ho' : (0 : Rat) ≤ out := by positivity
  constructor <;> linarith

/-! ## What `fixup_scale` computes -/

namespace Spec

/-- Size of the surface that is drawn on, in its unit (pixels, lines 105-107; points, lines 119-121, 133-135). -/
def surface (raster : Bool) (u : PaperUnits) (x : Rat) (res : Nat) : Rat := if raster then (sizeInPixels u x res : Rat) else sizeInPoints u x res

/-- The resolutions for which the page's shape can be kept: the same in both directions; or, on a paper that is not measured in pixels, a
multiple of each other, and for formats that are measured in points any. -/
def Compatible (raster : Bool) (u : PaperUnits) (resW resH : Nat) : Prop :=
  0 < resW ∧ 0 < resH ∧ (resW = resH ∨ u ≠ .Pixels ∧ (raster = false ∨ resW ∣ resH ∨ resH ∣ resW))

/-- A paper with sizes that are not negative, and with less than 2^32 pixels or points in each direction. -/
def Sized (raster : Bool) (resW resH : Nat) (paper : Paper) : Prop :=
  0 ≤ paper.w ∧ 0 ≤ paper.h ∧ surface raster paper.units paper.w resW < 2 ^ 32 ∧ surface raster paper.units paper.h resH < 2 ^ 32

/-- The paper in whole steps: those of the coarser resolution -/
def wholeSteps (raster : Bool) (u : PaperUnits) (x : Rat) (resW resH : Nat) : Nat := (surface raster u x (min resW resH)).floor.toNat

/-- How far a step of the coarser resolution is in a direction of the resolution `res`, when the other has `other`. -/
def step (raster : Bool) (res other : Nat) : Nat := if raster then max 1 (res / other) else 1

/-- Half a pixel is the most that is lost by counting in whole ones; what the rounding of numbers adds to it. -/
def blur (paper page : Rat) : Rat := (paper + page + 1) / 2 ^ 20

end Spec

theorem sizeInPoints_nonneg (u : PaperUnits) {x : Rat} (hx : 0 ≤ x) (res : Nat) : 0 ≤ sizeInPoints u x res := by
  have hr : (0 : Rat) ≤ res := by positivity
  have hm : (0 : Rat) ≤ mmPerIn := dbl_nonneg (by norm_num)
  cases u with
  | Pixels => exact roundHundredth_nonneg (dbl_nonneg (mul_nonneg (dbl_nonneg (div_nonneg hx hr)) (by norm_num)))
  | Millimeters => exact roundHundredth_nonneg (dbl_nonneg (mul_nonneg (dbl_nonneg (div_nonneg hx hm)) (by norm_num)))
  | Inches => exact dbl_nonneg (by positivity)

/-- A paper in pixels of a resolution, and of a multiple of it. -/
theorem sizeInPixels_mul {u : PaperUnits} (hu : u ≠ .Pixels) {x : Rat} (hx : 0 ≤ x) (k res : Nat) (hk : 1 ≤ k)
    (hs : (sizeInPixels u x (k * res) : Rat) < 2 ^ 32) :
    k * sizeInPixels u x res ≤ sizeInPixels u x (k * res) + 1 ∧ sizeInPixels u x (k * res) ≤ k * sizeInPixels u x res + k := by
  have key : ∀ a b : Rat, 0 ≤ a → 0 ≤ b → k * a * (1 - 1 / 2 ^ 48) ≤ b → b ≤ k * a * (1 + 1 / 2 ^ 48) → ((b.floor.toNat : Nat) : Rat) < 2 ^ 32 →
      k * a.floor.toNat ≤ b.floor.toNat + 1 ∧ b.floor.toNat ≤ k * a.floor.toNat + k := by
    intro a b ha hb0 h1 h2 hs
    have hk' : (1 : Rat) ≤ k := by exact_mod_cast hk
    obtain ⟨a1, a2⟩ := floor_toNat ha
    obtain ⟨b1, b2⟩ := floor_toNat hb0
    generalize a.floor.toNat = A at *
    generalize b.floor.toNat = B at *
    have m1 := mul_le_mul_of_nonneg_left a1 (show (0 : Rat) ≤ k by linarith)
    have m2 := mul_lt_mul_of_pos_left a2 (show (0 : Rat) < k by linarith)
    have m3 : (0 : Rat) ≤ k * a := by positivity
    have m4 : (k * a : Rat) ≤ 2 ^ 33 := by linarith
    constructor
    · have : ((k * A : Nat) : Rat) < ((B + 2 : Nat) : Rat) := by push_cast; linarith
      have : k * A < B + 2 := by exact_mod_cast this
      omega
    · have : ((B : Nat) : Rat) < ((k * A + k + 1 : Nat) : Rat) := by push_cast; linarith
      have : B < k * A + k + 1 := by exact_mod_cast this
      omega
  have hr : (0 : Rat) ≤ x * res := mul_nonneg hx (by positivity)
  have hk0 : (0 : Rat) ≤ k := by positivity
  have hxk : x * ((k * res : Nat) : Rat) = k * (x * res) := by push_cast; ring
  cases u with
  | Pixels => exact absurd rfl hu
  | Inches =>
    have hs' : (((dbl (x * ((k * res : Nat) : Rat))).floor.toNat : Nat) : Rat) < 2 ^ 32 := hs
    refine key _ _ (dbl_nonneg hr) (dbl_nonneg ?_) ?_ ?_ hs'
    · rw [hxk]; positivity
    · have h1 := (dbl_bounds hr).2
      have h2 := (dbl_bounds (show 0 ≤ x * ((k * res : Nat) : Rat) by rw [hxk]; positivity)).1
      rw [hxk] at h2 ⊢
      have h3 := mul_le_mul_of_nonneg_left h1 hk0
      have h4 : 0 ≤ k * (x * res : Rat) := by positivity
      linarith
    · have h1 := (dbl_bounds hr).1
      have h2 := (dbl_bounds (show 0 ≤ x * ((k * res : Nat) : Rat) by rw [hxk]; positivity)).2
      rw [hxk] at h2 ⊢
      have h3 := mul_le_mul_of_nonneg_left h1 hk0
      have h4 : 0 ≤ k * (x * res : Rat) := by positivity
      linarith
  | Millimeters =>
    have hm : (0 : Rat) < mmPerIn := by
      have := (dbl_bounds (q := 254 / 10) (by norm_num)).1
      exact lt_of_lt_of_le (by norm_num) this
    have hs' : (((dbl (dbl (x * ((k * res : Nat) : Rat)) / mmPerIn)).floor.toNat : Nat) : Rat) < 2 ^ 32 := hs
    have hkr : 0 ≤ x * ((k * res : Nat) : Rat) := by rw [hxk]; positivity
    have p1 := dbl_bounds hr
    have p2 := dbl_bounds hkr
    have n1 := dbl_nonneg hr
    have n2 := dbl_nonneg hkr
    have q1 := dbl_bounds (div_nonneg n1 hm.le)
    have q2 := dbl_bounds (div_nonneg n2 hm.le)
    have d1 := div_le_div_of_nonneg_right p1.1 hm.le
    have d2 := div_le_div_of_nonneg_right p1.2 hm.le
    have d3 := div_le_div_of_nonneg_right p2.1 hm.le
    have d4 := div_le_div_of_nonneg_right p2.2 hm.le
    have e1 : ∀ c : Rat, x * res * c / mmPerIn = (x * res / mmPerIn) * c := fun c => by ring
    have e2 : ∀ c : Rat, x * ((k * res : Nat) : Rat) * c / mmPerIn = (k * (x * res / mmPerIn)) * c := fun c => by rw [hxk]; ring
    rw [e1] at d1 d2
    rw [e2] at d3 d4
    have n3 : 0 ≤ x * res / mmPerIn := div_nonneg hr hm.le
    refine key _ _ (dbl_nonneg (div_nonneg n1 hm.le)) (dbl_nonneg (div_nonneg n2 hm.le)) ?_ ?_ hs'
    · have m1 := mul_le_mul_of_nonneg_left q1.2 hk0
      have m2 := mul_le_mul_of_nonneg_left d2 hk0
      have m3 : 0 ≤ k * (x * res / mmPerIn) := mul_nonneg hk0 n3
      have m4 : 0 ≤ k * (dbl (x * res) / mmPerIn) := mul_nonneg hk0 (div_nonneg n1 hm.le)
      generalize dbl (dbl (x * res) / mmPerIn) = A at *
      generalize dbl (dbl (x * ((k * res : Nat) : Rat)) / mmPerIn) = B at *
      generalize dbl (x * res) / mmPerIn = A' at *
      generalize dbl (x * ((k * res : Nat) : Rat)) / mmPerIn = B' at *
      generalize x * res / mmPerIn = T at *
      linarith
    · have m1 := mul_le_mul_of_nonneg_left q1.1 hk0
      have m2 := mul_le_mul_of_nonneg_left d1 hk0
      have m3 : 0 ≤ k * (x * res / mmPerIn) := mul_nonneg hk0 n3
      have m4 : 0 ≤ k * (dbl (x * res) / mmPerIn) := mul_nonneg hk0 (div_nonneg n1 hm.le)
      generalize dbl (dbl (x * res) / mmPerIn) = A at *
      generalize dbl (dbl (x * ((k * res : Nat) : Rat)) / mmPerIn) = B at *
      generalize dbl (x * res) / mmPerIn = A' at *
      generalize dbl (x * ((k * res : Nat) : Rat)) / mmPerIn = B' at *
      generalize x * res / mmPerIn = T at *
      linarith

theorem wholeSteps_raster (u : PaperUnits) (x : Rat) (resW resH : Nat) : Spec.wholeSteps true u x resW resH = sizeInPixels u x (min resW resH) := by
  show (((sizeInPixels u x (min resW resH) : Nat) : Rat).floor).toNat = _
  have : ((sizeInPixels u x (min resW resH) : Nat) : Rat).floor = ((sizeInPixels u x (min resW resH) : Nat) : Int) := Int.floor_natCast (R := Rat) _
  rw [this]; rfl

/-- a number, times a factor: as it is, or rounded -/
def Times (y x : Rat) (k : Nat) : Prop := |y - x * k| ≤ |x * k| / 2 ^ 53 ∧ (0 ≤ x → 0 ≤ y)

theorem times_one (x : Rat) : Times x x 1 := by
  constructor
  · simp; positivity
  · exact id

theorem times_dbl (x : Rat) (k : Nat) : Times (dbl (x * k)) x k := ⟨dbl_err _, fun h => dbl_nonneg (by positivity)⟩

/-- The computation, with the factor of each direction. -/
theorem fixup_eq {raster : Bool} {resW resH : Nat} {paper : Paper} {wIn hIn : Rat} (hc : Spec.Compatible raster paper.units resW resH)
    (hp : Spec.Sized raster resW resH paper) :
    ∃ (kx ky wOut hOut : Nat) (s : Rat), 1 ≤ kx ∧ 1 ≤ ky ∧ (raster = true → kx * resH = ky * resW) ∧
      kx = Spec.step raster resW resH ∧ ky = Spec.step raster resH resW ∧
      wOut = Spec.wholeSteps raster paper.units paper.w resW resH ∧ hOut = Spec.wholeSteps raster paper.units paper.h resW resH ∧
      let sc := fixupScale raster resW resH paper wIn hIn
      s = roundHundredth (min (dbl (wOut / sc.w)) (dbl (hOut / sc.h))) ∧ s = (if resW ≤ resH then sc.xScale else sc.yScale) ∧
      (raster = false ∨ resW = resH → sc.xScale = s ∧ sc.yScale = s) ∧
      Times sc.xScale s kx ∧ Times sc.yScale s ky ∧ Times sc.xOffset (offset wOut sc.w s) kx ∧ Times sc.yOffset (offset hOut sc.h s) ky ∧
      (kx * wOut ≤ Spec.surface raster paper.units paper.w resW + (if resW = resH then 0 else 1) ∧ Spec.surface raster paper.units paper.w resW ≤ kx * wOut + kx) ∧
      (ky * hOut ≤ Spec.surface raster paper.units paper.h resH + (if resW = resH then 0 else 1) ∧ Spec.surface raster paper.units paper.h resH ≤ ky * hOut + ky) := by
  obtain ⟨hpw, hph, hsw, hsh⟩ := hp
  cases raster with
  | false =>
    have hres : ∀ x : Rat, sizeInPoints paper.units x (min resW resH) = sizeInPoints paper.units x resW ∧ sizeInPoints paper.units x (min resW resH) = sizeInPoints paper.units x resH := by
      intro x
      rcases hc.2.2 with e | ⟨hu, -⟩
      · subst e; rw [Nat.min_self]; exact ⟨rfl, rfl⟩
      · unfold sizeInPoints
        revert hu
        cases paper.units <;> simp
    have h1 := floor_toNat (sizeInPoints_nonneg paper.units hpw (min resW resH))
    have h2 := floor_toNat (sizeInPoints_nonneg paper.units hph (min resW resH))
    have z : (0 : Rat) ≤ if resW = resH then 0 else 1 := by split <;> norm_num
    refine ⟨1, 1, (sizeInPoints paper.units paper.w (min resW resH)).floor.toNat, (sizeInPoints paper.units paper.h (min resW resH)).floor.toNat, _, by omega, by omega, by simp,
      rfl, rfl, rfl, rfl, rfl, ?_⟩
    simp only [fixupScale, Spec.surface, Bool.false_eq_true, false_and, if_false, Nat.cast_one, one_mul, ite_self, true_or, true_and, and_self, forall_const,
      ← (hres paper.w).1, ← (hres paper.h).2]
    exact ⟨times_one _, times_one _, times_one _, times_one _, ⟨by linarith, by linarith⟩, by linarith, by linarith⟩
  | true =>
    obtain ⟨hw, hh, hcc⟩ := hc
    have hsw' : (sizeInPixels paper.units paper.w resW : Rat) < 2 ^ 32 := hsw
    have hsh' : (sizeInPixels paper.units paper.h resH : Rat) < 2 ^ 32 := hsh
    by_cases hgt : resW > resH
    · obtain ⟨hu, hd⟩ := hcc.resolve_left (by omega)
      have hdv : resH ∣ resW := by
        rcases hd with h | h | h
        · cases h
        · have := Nat.le_of_dvd hh h; omega
        · exact h
      obtain ⟨k, rfl⟩ := hdv
      have hk : 1 ≤ k := by rcases Nat.eq_zero_or_pos k with h | h; · subst h; omega
                            · exact h
      have hdiv : resH * k / resH = k := Nat.mul_div_cancel_left _ hh
      have hmin : min (resH * k) resH = resH := by omega
      have hne : resH * k ≠ resH := by omega
      have hnle : ¬ resH * k ≤ resH := by omega
      have b := sizeInPixels_mul hu hpw k resH hk (by rw [Nat.mul_comm]; exact hsw')
      rw [Nat.mul_comm k resH] at b
      have b1 : (k : Rat) * sizeInPixels paper.units paper.w resH ≤ sizeInPixels paper.units paper.w (resH * k) + 1 := by exact_mod_cast b.1
      have b2 : (sizeInPixels paper.units paper.w (resH * k) : Rat) ≤ k * sizeInPixels paper.units paper.w resH + k := by exact_mod_cast b.2
      have hlt : resH / (resH * k) ≤ 1 := Nat.div_le_of_le_mul (by nlinarith)
      refine ⟨k, 1, sizeInPixels paper.units paper.w resH, sizeInPixels paper.units paper.h resH, _, hk, by omega, fun _ => by rw [Nat.one_mul, Nat.mul_comm],
        ?_, ?_, by rw [wholeSteps_raster, hmin], by rw [wholeSteps_raster, hmin], rfl, ?_⟩
      · simp only [Spec.step, if_true, hdiv]; omega
      · simp only [Spec.step, if_true]; omega
      · simp only [fixupScale, Spec.surface, hmin, hdiv, true_and, if_true, if_pos hgt, Nat.cast_one, one_mul, hne, hnle, if_false, Bool.true_eq_false, or_self, false_imp_iff]
        exact ⟨times_dbl _ _, times_one _, times_dbl _ _, times_one _, ⟨b1, b2⟩, by linarith, by linarith⟩
    · by_cases hlt : resH > resW
      · obtain ⟨hu, hd⟩ := hcc.resolve_left (by omega)
        have hdv : resW ∣ resH := by
          rcases hd with h | h | h
          · cases h
          · exact h
          · have := Nat.le_of_dvd hw h; omega
        obtain ⟨k, rfl⟩ := hdv
        have hk : 1 ≤ k := by rcases Nat.eq_zero_or_pos k with h | h; · subst h; omega
                              · exact h
        have hdiv : resW * k / resW = k := Nat.mul_div_cancel_left _ hw
        have hmin : min resW (resW * k) = resW := by omega
        have hne : resW ≠ resW * k := by omega
        have hle : resW ≤ resW * k := by omega
        have b := sizeInPixels_mul hu hph k resW hk (by rw [Nat.mul_comm]; exact hsh')
        rw [Nat.mul_comm k resW] at b
        have b1 : (k : Rat) * sizeInPixels paper.units paper.h resW ≤ sizeInPixels paper.units paper.h (resW * k) + 1 := by exact_mod_cast b.1
        have b2 : (sizeInPixels paper.units paper.h (resW * k) : Rat) ≤ k * sizeInPixels paper.units paper.h resW + k := by exact_mod_cast b.2
        have hlt2 : resW / (resW * k) ≤ 1 := Nat.div_le_of_le_mul (by nlinarith)
        refine ⟨1, k, sizeInPixels paper.units paper.w resW, sizeInPixels paper.units paper.h resW, _, by omega, hk, fun _ => by rw [Nat.one_mul, Nat.mul_comm],
          ?_, ?_, by rw [wholeSteps_raster, hmin], by rw [wholeSteps_raster, hmin], rfl, ?_⟩
        · simp only [Spec.step, if_true]; omega
        · simp only [Spec.step, if_true, hdiv]; omega
        · simp only [fixupScale, Spec.surface, hmin, hdiv, true_and, if_true, if_neg hgt, if_pos hlt, Nat.cast_one, one_mul, hne, hle, if_false, Bool.true_eq_false, or_self, false_imp_iff]
          exact ⟨times_one _, times_dbl _ _, times_one _, times_dbl _ _, ⟨by linarith, by linarith⟩, b1, b2⟩
      · have e : resW = resH := by omega
        subst e
        refine ⟨1, 1, sizeInPixels paper.units paper.w resW, sizeInPixels paper.units paper.h resW, _, by omega, by omega, by simp,
          ?_, ?_, by rw [wholeSteps_raster, Nat.min_self], by rw [wholeSteps_raster, Nat.min_self], rfl, ?_⟩
        · simp only [Spec.step, if_true, Nat.div_self hw]; omega
        · simp only [Spec.step, if_true, Nat.div_self hw]; omega
        · simp only [fixupScale, Spec.surface, Nat.min_self, true_and, if_true, if_neg hgt, Nat.cast_one, one_mul, ite_self, or_true, and_self, forall_const, le_refl]
          exact ⟨times_one _, times_one _, times_one _, times_one _, ⟨by linarith, by linarith⟩, by linarith, by linarith⟩

theorem fixup_turn (raster : Bool) (resW resH : Nat) (paper : Paper) (wIn hIn : Rat) :
    let sc := fixupScale raster resW resH paper wIn hIn
    (sc.rotate = false ∧ sc.w = wIn ∧ sc.h = hIn ∧ wIn ≤ hIn) ∨ (sc.rotate = true ∧ sc.w = hIn ∧ sc.h = wIn ∧ hIn < wIn) := by
  by_cases h : wIn > hIn
  · right
    simp only [fixupScale]
    split
    · simp [h]
    · split <;> simp [h]
  · left
    simp only [fixupScale]
    split
    · simp [h, not_lt.1 h]
    · split <;> simp [h, not_lt.1 h]

theorem fixup_pos {raster : Bool} {resW resH : Nat} {paper : Paper} {wIn hIn : Rat} (hw : 0 < wIn) (hh : 0 < hIn) :
    0 < (fixupScale raster resW resH paper wIn hIn).w ∧ 0 < (fixupScale raster resW resH paper wIn hIn).h := by
  rcases fixup_turn raster resW resH paper wIn hIn with h | h <;> rw [h.2.1, h.2.2.1] <;> exact ⟨by assumption, by assumption⟩

theorem surface_nonneg (raster : Bool) (u : PaperUnits) {x : Rat} (hx : 0 ≤ x) (res : Nat) : 0 ≤ Spec.surface raster u x res := by
  unfold Spec.surface
  split
  · positivity
  · exact sizeInPoints_nonneg u hx res

/-! ## From one direction to the surface -/

/-- The drawn page, and its offset, from those in steps. -/
theorem times_page {xs s w : Rat} {k : Nat} (hs : 0 ≤ s) (hw : 0 < w) (h : Times xs s k) :
    k * (w * s) * (1 - 1 / 2 ^ 53) ≤ w * xs ∧ w * xs ≤ k * (w * s) * (1 + 1 / 2 ^ 53) := by
  have h1 := h.1
  rw [abs_of_nonneg (show 0 ≤ s * k by positivity), abs_le] at h1
  have a := mul_le_mul_of_nonneg_left (show s * k - s * k / 2 ^ 53 ≤ xs by linarith) hw.le
  have b := mul_le_mul_of_nonneg_left (show xs ≤ s * k + s * k / 2 ^ 53 by linarith) hw.le
  have e1 : w * (s * k - s * k / 2 ^ 53) = k * (w * s) * (1 - 1 / 2 ^ 53) := by ring
  have e2 : w * (s * k + s * k / 2 ^ 53) = k * (w * s) * (1 + 1 / 2 ^ 53) := by ring
  rw [e1] at a
  rw [e2] at b
  exact ⟨a, b⟩

theorem offset_abs (out : Nat) {w s : Rat} (ha : 0 ≤ w * s) : |(offset out w s : Rat)| ≤ 2 * (out + w * s) := by
  have ho : (0 : Rat) ≤ out := by positivity
  by_cases h0 : offset out w s = 0
  · rw [h0]; simp only [Int.cast_zero, abs_zero]; positivity
  · have h1 : (1 : Rat) ≤ |(offset out w s : Rat)| := by
      have : 1 ≤ |offset out w s| := Int.one_le_abs h0
      exact_mod_cast this
    have hn := abs_le.1 (offset_near out ha)
    rcases abs_cases (offset out w s : Rat) with ⟨e, -⟩ | ⟨e, -⟩
    · rw [e] at h1 ⊢; linarith
    · rw [e] at h1 ⊢; linarith

theorem centred_axis {out k : Nat} {w s xs xo W : Rat} {o : Int} (ho : o = offset out w s) (hk : 1 ≤ k) (hw : 0 < w) (hs : 0 ≤ s) (hxs : Times xs s k) (hxo : Times xo o k)
    (h1 : k * out ≤ W + 1) (h2 : W ≤ k * out + k) : |xo - (W - (xo + w * xs))| ≤ 2 * k + Spec.blur W (w * xs) := by
  have hn := offset_near out (mul_nonneg hw.le hs)
  have hp := times_page hs hw hxs
  have hx := hxo.1
  rw [← ho] at hn
  have ha : 0 ≤ w * s := mul_nonneg hw.le hs
  have hk' : (1 : Rat) ≤ k := by exact_mod_cast hk
  have hka : 0 ≤ k * (w * s) := by positivity
  have hko : (0 : Rat) ≤ k * out := by positivity
  have hn1 := mul_le_mul_of_nonneg_left (abs_le.1 hn).1 (show (0 : Rat) ≤ k by linarith)
  have hn2 := mul_le_mul_of_nonneg_left (abs_le.1 hn).2 (show (0 : Rat) ≤ k by linarith)
  have hn3 := mul_le_mul_of_nonneg_left (offset_abs out ha) (show (0 : Rat) ≤ k by linarith)
  rw [← ho] at hn3
  have hok : |(o : Rat) * k| ≤ 2 * (k * out + k * (w * s)) := by
    rw [abs_mul, abs_of_nonneg (show (0 : Rat) ≤ k by linarith)]
    linarith
  have hx' := abs_le.1 (le_trans hx (div_le_div_of_nonneg_right hok (by positivity)))
  unfold Spec.blur
  rw [abs_le]
  constructor <;> linarith

theorem fits_axis {out k : Nat} {w s xs xo W e : Rat} {o : Int} (hout : out < 2 ^ 53) (ho : o = offset out w s) (hw : 0 < w) (hs : 0 ≤ s) (hxs : Times xs s k) (hxo : Times xo o k)
    (h1 : k * out ≤ W + e) (he : e ≤ 1) (h : w * s ≤ out) : 0 ≤ xo ∧ xo + w * xs ≤ W + e + Spec.blur W (w * xs) := by
  have ha : 0 ≤ w * s := mul_nonneg hw.le hs
  obtain ⟨h0, hf⟩ := offset_fits hout ha h
  have hp := times_page hs hw hxs
  rw [← ho] at h0 hf
  have h0' : (0 : Rat) ≤ o := by exact_mod_cast h0
  refine ⟨hxo.2 h0', ?_⟩
  have hx := hxo.1
  have hk0 : (0 : Rat) ≤ k := by positivity
  have hok : 0 ≤ (o : Rat) * k := mul_nonneg h0' hk0
  rw [abs_of_nonneg hok, abs_le] at hx
  have hka : 0 ≤ k * (w * s) := by positivity
  have hko : (0 : Rat) ≤ k * out := by positivity
  have hf' := mul_le_mul_of_nonneg_left hf hk0
  unfold Spec.blur
  linarith

theorem over_axis {out k : Nat} {w s m xs xo W : Rat} {o : Int} (ho : o = offset out w s) (hw : 0 < w) (hm0 : 0 ≤ m) (hm : m ≤ dbl (out / w)) (hs : s = roundHundredth m)
    (hxs : Times xs s k) (hxo : Times xo o k) (h1 : k * out ≤ W + 1) :
    -(k * (w / 399 + 1 / 2)) - Spec.blur W (w * xs) ≤ xo ∧ xo + w * xs ≤ W + 1 + k * (w / 399 + 1 / 2) + Spec.blur W (w * xs) := by
  have hs0 : 0 ≤ s := hs ▸ roundHundredth_nonneg hm0
  have ha : 0 ≤ w * s := mul_nonneg hw.le hs0
  have hf := offset_over hw hm0 hm hs
  have hp := times_page hs0 hw hxs
  have hk0 : (0 : Rat) ≤ k := by positivity
  have hn3 := mul_le_mul_of_nonneg_left (offset_abs out ha) hk0
  rw [← ho] at hf hn3
  have hok : |(o : Rat) * k| ≤ 2 * (k * out + k * (w * s)) := by
    rw [abs_mul, abs_of_nonneg hk0]
    linarith
  have hx := abs_le.1 (le_trans hxo.1 (div_le_div_of_nonneg_right hok (by positivity)))
  have hka : 0 ≤ k * (w * s) := by positivity
  have hko : (0 : Rat) ≤ k * out := by positivity
  have f1 := mul_le_mul_of_nonneg_left hf.1 hk0
  have f2 := mul_le_mul_of_nonneg_left hf.2 hk0
  unfold Spec.blur
  constructor <;> linarith

/-! ## The property -/

/-- **C50, the shape.** A page that is wider than high is turned, so that it is not; it is drawn with the same physical scale in both directions, as
near as doubles can be.
Missing: other resolutions (`C50_shape_false`, `C50_pixels_false`). -/
theorem C50_shape_partial {raster : Bool} {resW resH : Nat} {paper : Paper} {wIn hIn : Rat} (hc : Spec.Compatible raster paper.units resW resH)
    (hp : Spec.Sized raster resW resH paper) (hw : 0 < wIn) (hh : 0 < hIn) :
    let sc := fixupScale raster resW resH paper wIn hIn
    ((sc.rotate = false ∧ sc.w = wIn ∧ sc.h = hIn ∧ wIn ≤ hIn) ∨ (sc.rotate = true ∧ sc.w = hIn ∧ sc.h = wIn ∧ hIn < wIn)) ∧
    0 ≤ sc.xScale ∧ 0 ≤ sc.yScale ∧
    (raster = true → |sc.xScale * resH - sc.yScale * resW| ≤ (sc.xScale * resH + sc.yScale * resW) / 2 ^ 52) ∧
    (raster = false ∨ resW = resH → sc.xScale = sc.yScale) := by
  obtain ⟨hw0, hh0⟩ := fixup_pos (raster := raster) (resW := resW) (resH := resH) (paper := paper) hw hh
  obtain ⟨kx, ky, wOut, hOut, s, -, -, hk, -, -, -, -, hs, -, hsym, hx, hy, -⟩ := fixup_eq (wIn := wIn) (hIn := hIn) hc hp
  have hs0 : 0 ≤ s := hs ▸ roundHundredth_nonneg (le_min (dbl_nonneg (div_nonneg (by positivity) hw0.le)) (dbl_nonneg (div_nonneg (by positivity) hh0.le)))
  refine ⟨fixup_turn .., hx.2 hs0, hy.2 hs0, ?_, fun h => (hsym h).1.trans (hsym h).2.symm⟩
  intro hr
  have hk' : (kx : Rat) * resH = ky * resW := by exact_mod_cast hk hr
  generalize fixupScale raster resW resH paper wIn hIn = sc at *
  have hx1 := hx.1
  have hy1 := hy.1
  rw [abs_of_nonneg (show 0 ≤ s * kx by positivity), abs_le] at hx1
  rw [abs_of_nonneg (show 0 ≤ s * ky by positivity), abs_le] at hy1
  have rH : (0 : Rat) ≤ resH := by positivity
  have rW : (0 : Rat) ≤ resW := by positivity
  have e : s * kx * resH = s * ky * resW := by rw [mul_assoc, mul_assoc, hk']
  have x1 := mul_le_mul_of_nonneg_right hx1.1 rH
  have x2 := mul_le_mul_of_nonneg_right hx1.2 rH
  have y1 := mul_le_mul_of_nonneg_right hy1.1 rW
  have y2 := mul_le_mul_of_nonneg_right hy1.2 rW
  have p : 0 ≤ s * kx * resH := by positivity
  rw [abs_le]
  constructor <;> linarith

/-- **C50, centred.** The space left of the drawn page and the space right of it differ by at most two steps (and the blur), and so do the spaces above
and below. -/
theorem C50_centred_partial {raster : Bool} {resW resH : Nat} {paper : Paper} {wIn hIn : Rat} (hc : Spec.Compatible raster paper.units resW resH)
    (hp : Spec.Sized raster resW resH paper) (hw : 0 < wIn) (hh : 0 < hIn) :
    let sc := fixupScale raster resW resH paper wIn hIn
    let W := Spec.surface raster paper.units paper.w resW
    let H := Spec.surface raster paper.units paper.h resH
    |sc.xOffset - (W - (sc.xOffset + sc.w * sc.xScale))| ≤ 2 * Spec.step raster resW resH + Spec.blur W (sc.w * sc.xScale) ∧
    |sc.yOffset - (H - (sc.yOffset + sc.h * sc.yScale))| ≤ 2 * Spec.step raster resH resW + Spec.blur H (sc.h * sc.yScale) := by
  obtain ⟨hw0, hh0⟩ := fixup_pos (raster := raster) (resW := resW) (resH := resH) (paper := paper) hw hh
  obtain ⟨kx, ky, wOut, hOut, s, h1, h2, -, ekx, eky, -, -, hs, -, -, hx, hy, hxo, hyo, hsx, hsy⟩ := fixup_eq (wIn := wIn) (hIn := hIn) hc hp
  have hs0 : 0 ≤ s := hs ▸ roundHundredth_nonneg (le_min (dbl_nonneg (div_nonneg (by positivity) hw0.le)) (dbl_nonneg (div_nonneg (by positivity) hh0.le)))
  have z : (if resW = resH then 0 else 1 : Rat) ≤ 1 := by split <;> norm_num
  rw [← ekx, ← eky]
  exact ⟨centred_axis rfl h1 hw0 hs0 hx hxo (by linarith [hsx.1]) hsx.2, centred_axis rfl h2 hh0 hs0 hy hyo (by linarith [hsy.1]) hsy.2⟩

/-- **C50, the scale.** In steps of the coarser resolution the scale is a whole number of hundredths, as a double, and differs by at most half a hundredth from the
largest with which the page would fit a paper of whole steps. -/
theorem C50_scale_partial {raster : Bool} {resW resH : Nat} {paper : Paper} {wIn hIn : Rat} (hc : Spec.Compatible raster paper.units resW resH)
    (hp : Spec.Sized raster resW resH paper) (hw : 0 < wIn) (hh : 0 < hIn) :
    let sc := fixupScale raster resW resH paper wIn hIn
    let best : Rat := min (Spec.wholeSteps raster paper.units paper.w resW resH / sc.w) (Spec.wholeSteps raster paper.units paper.h resW resH / sc.h)
    (∃ n : Nat, (if resW ≤ resH then sc.xScale else sc.yScale) = dbl (n / 100) ∧ |(n : Rat) / 100 - best| ≤ 1 / 200 + best / 2 ^ 51) ∧
    |sc.xScale - (if resW ≤ resH then sc.xScale else sc.yScale) * Spec.step raster resW resH| ≤ sc.xScale / 2 ^ 52 ∧
    |sc.yScale - (if resW ≤ resH then sc.xScale else sc.yScale) * Spec.step raster resH resW| ≤ sc.yScale / 2 ^ 52 := by
  obtain ⟨hw0, hh0⟩ := fixup_pos (raster := raster) (resW := resW) (resH := resH) (paper := paper) hw hh
  obtain ⟨kx, ky, wOut, hOut, s, h1, h2, -, ekx, eky, ewo, eho, hs, hs2, -, hx, hy, -⟩ := fixup_eq (wIn := wIn) (hIn := hIn) hc hp
  have a0 : (0 : Rat) ≤ wOut / (fixupScale raster resW resH paper wIn hIn).w := div_nonneg (by positivity) hw0.le
  have b0 : (0 : Rat) ≤ hOut / (fixupScale raster resW resH paper wIn hIn).h := div_nonneg (by positivity) hh0.le
  have hm0 := le_min (dbl_nonneg a0) (dbl_nonneg b0)
  have hs0 : 0 ≤ s := hs ▸ roundHundredth_nonneg hm0
  intro sc best
  obtain ⟨n, en, n1, n2⟩ := roundHundredth_near hm0
  have da := dbl_bounds a0
  have db := dbl_bounds b0
  have hmin : best * (1 - 1 / 2 ^ 53) ≤ min (dbl (wOut / sc.w)) (dbl (hOut / sc.h)) ∧ min (dbl (wOut / sc.w)) (dbl (hOut / sc.h)) ≤ best * (1 + 1 / 2 ^ 53) := by
    have e : best = min (wOut / sc.w : Rat) (hOut / sc.h) := by show min _ _ = _; rw [← ewo, ← eho]
    rw [e]
    constructor
    · refine le_min ?_ ?_
      · have := min_le_left (wOut / sc.w : Rat) (hOut / sc.h)
        exact le_trans (mul_le_mul_of_nonneg_right this (by norm_num)) da.1
      · have := min_le_right (wOut / sc.w : Rat) (hOut / sc.h)
        exact le_trans (mul_le_mul_of_nonneg_right this (by norm_num)) db.1
    · rcases le_total (wOut / sc.w : Rat) (hOut / sc.h) with h | h
      · rw [min_eq_left h]; exact le_trans (min_le_left _ _) da.2
      · rw [min_eq_right h]; exact le_trans (min_le_right _ _) db.2
  have hb0 : 0 ≤ best := by
    show (0 : Rat) ≤ min _ _
    rw [← ewo, ← eho]
    exact le_min a0 b0
  have hx1 := hx.1
  have hy1 := hy.1
  rw [abs_of_nonneg (show 0 ≤ s * kx by positivity), abs_le] at hx1
  rw [abs_of_nonneg (show 0 ≤ s * ky by positivity), abs_le] at hy1
  have px : 0 ≤ s * kx := by positivity
  have py : 0 ≤ s * ky := by positivity
  change s = if resW ≤ resH then sc.xScale else sc.yScale at hs2
  change -(s * kx / 2 ^ 53) ≤ sc.xScale - s * kx ∧ sc.xScale - s * kx ≤ s * kx / 2 ^ 53 at hx1
  change -(s * ky / 2 ^ 53) ≤ sc.yScale - s * ky ∧ sc.yScale - s * ky ≤ s * ky / 2 ^ 53 at hy1
  rw [← hs2, ← ekx, ← eky]
  refine ⟨⟨n, hs.trans en, ?_⟩, ?_, ?_⟩
  · rw [abs_le]
    constructor <;> linarith [hmin.1, hmin.2]
  · rw [abs_le]
    constructor <;> linarith
  · rw [abs_le]
    constructor <;> linarith

/-- **C50, fits.** When the scaled page is not larger than a paper of whole steps, it lies within the paper: nothing is outside at the left or at
the top, and at the right and the bottom nothing but the blur, and with different resolutions one pixel. Missing: when rounding to two decimals makes
the page larger (`C50_fits_false`). -/
theorem C50_fits_partial {raster : Bool} {resW resH : Nat} {paper : Paper} {wIn hIn : Rat} (hc : Spec.Compatible raster paper.units resW resH)
    (hp : Spec.Sized raster resW resH paper) (hw : 0 < wIn) (hh : 0 < hIn) :
    let sc := fixupScale raster resW resH paper wIn hIn
    let W := Spec.surface raster paper.units paper.w resW
    let H := Spec.surface raster paper.units paper.h resH
    let scale := if resW ≤ resH then sc.xScale else sc.yScale
    (sc.w * scale ≤ Spec.wholeSteps raster paper.units paper.w resW resH →
      0 ≤ sc.xOffset ∧ sc.xOffset + sc.w * sc.xScale ≤ W + (if resW = resH then 0 else 1) + Spec.blur W (sc.w * sc.xScale)) ∧
    (sc.h * scale ≤ Spec.wholeSteps raster paper.units paper.h resW resH →
      0 ≤ sc.yOffset ∧ sc.yOffset + sc.h * sc.yScale ≤ H + (if resW = resH then 0 else 1) + Spec.blur H (sc.h * sc.yScale)) := by
  obtain ⟨hw0, hh0⟩ := fixup_pos (raster := raster) (resW := resW) (resH := resH) (paper := paper) hw hh
  obtain ⟨kx, ky, wOut, hOut, s, h1, h2, -, ekx, eky, ewo, eho, hs, hs2, -, hx, hy, hxo, hyo, hsx, hsy⟩ := fixup_eq (wIn := wIn) (hIn := hIn) hc hp
  have hs0 : 0 ≤ s := hs ▸ roundHundredth_nonneg (le_min (dbl_nonneg (div_nonneg (by positivity) hw0.le)) (dbl_nonneg (div_nonneg (by positivity) hh0.le)))
  have z : (if resW = resH then 0 else 1 : Rat) ≤ 1 := by split <;> norm_num
  have small : ∀ (k out : Nat) (W : Rat), 1 ≤ k → k * out ≤ W + (if resW = resH then 0 else 1 : Rat) → W < 2 ^ 32 → out < 2 ^ 53 := by
    intro k out W hk h hW
    have hk' : (1 : Rat) ≤ k := by exact_mod_cast hk
    have : (out : Rat) ≤ k * out := by nlinarith [show (0 : Rat) ≤ out by positivity]
    have : (out : Rat) < 2 ^ 53 := by linarith
    exact_mod_cast this
  intro sc W H scale
  have e : scale = s := hs2.symm
  rw [e, ← ewo, ← eho]
  exact ⟨fits_axis (small _ _ _ h1 hsx.1 hp.2.2.1) rfl hw0 hs0 hx hxo hsx.1 z, fits_axis (small _ _ _ h2 hsy.1 hp.2.2.2) rfl hh0 hs0 hy hyo hsy.1 z⟩

/-- **C50, nearly fits.** The page is never outside the paper by more than 1/399 of its own (unscaled) size and half a unit on a side, in steps of the coarser
resolution, and a pixel and the blur. -/
theorem C50_over_partial {raster : Bool} {resW resH : Nat} {paper : Paper} {wIn hIn : Rat} (hc : Spec.Compatible raster paper.units resW resH)
    (hp : Spec.Sized raster resW resH paper) (hw : 0 < wIn) (hh : 0 < hIn) :
    let sc := fixupScale raster resW resH paper wIn hIn
    let W := Spec.surface raster paper.units paper.w resW
    let H := Spec.surface raster paper.units paper.h resH;
    -(Spec.step raster resW resH * (sc.w / 399 + 1 / 2)) - Spec.blur W (sc.w * sc.xScale) ≤ sc.xOffset ∧
    sc.xOffset + sc.w * sc.xScale ≤ W + 1 + Spec.step raster resW resH * (sc.w / 399 + 1 / 2) + Spec.blur W (sc.w * sc.xScale) ∧
    -(Spec.step raster resH resW * (sc.h / 399 + 1 / 2)) - Spec.blur H (sc.h * sc.yScale) ≤ sc.yOffset ∧
    sc.yOffset + sc.h * sc.yScale ≤ H + 1 + Spec.step raster resH resW * (sc.h / 399 + 1 / 2) + Spec.blur H (sc.h * sc.yScale) := by
  obtain ⟨hw0, hh0⟩ := fixup_pos (raster := raster) (resW := resW) (resH := resH) (paper := paper) hw hh
  obtain ⟨kx, ky, wOut, hOut, s, h1, h2, -, ekx, eky, ewo, eho, hs, -, -, hx, hy, hxo, hyo, hsx, hsy⟩ := fixup_eq (wIn := wIn) (hIn := hIn) hc hp
  have hm0 : 0 ≤ min (dbl (wOut / (fixupScale raster resW resH paper wIn hIn).w)) (dbl (hOut / (fixupScale raster resW resH paper wIn hIn).h)) :=
    le_min (dbl_nonneg (div_nonneg (by positivity) hw0.le)) (dbl_nonneg (div_nonneg (by positivity) hh0.le))
  have z : (if resW = resH then 0 else 1 : Rat) ≤ 1 := by split <;> norm_num
  have a := over_axis (W := Spec.surface raster paper.units paper.w resW) rfl hw0 hm0 (min_le_left _ _) hs hx hxo (by linarith [hsx.1])
  have b := over_axis (W := Spec.surface raster paper.units paper.h resH) rfl hh0 hm0 (min_le_right _ _) hs hy hyo (by linarith [hsy.1])
  rw [← ekx, ← eky]
  exact ⟨a.1, a.2, b.1, b.2⟩

/-- **C50, where it fails: fits.** An A4 page on A4 paper with 300 dpi is four pixels too high. -/
theorem C50_fits_false : ¬ ∀ (resW resH : Nat) (paper : Paper) (wIn hIn : Rat), Spec.Compatible true paper.units resW resH → Spec.Sized true resW resH paper →
    0 < wIn → 0 < hIn →
    (fixupScale true resW resH paper wIn hIn).h * (fixupScale true resW resH paper wIn hIn).yScale ≤ Spec.surface true paper.units paper.h resH + 3 := by
  intro h
  have := h 300 300 {} (dbl (59528 / 100)) (dbl (84189 / 100)) ⟨by decide, by decide, .inl rfl⟩ ⟨by decide +kernel, by decide +kernel, by decide +kernel, by decide +kernel⟩
    (by decide +kernel) (by decide +kernel)
  revert this
  decide +kernel

/-- **C50, where it fails: the shape.** With 1200 × 900 dpi the integer division 1200/900 leaves out the difference. -/
theorem C50_shape_false : ¬ ∀ (resW resH : Nat) (paper : Paper) (wIn hIn : Rat), 0 < resW → 0 < resH → 0 < wIn → 0 < hIn →
    |(fixupScale true resW resH paper wIn hIn).xScale * resH - (fixupScale true resW resH paper wIn hIn).yScale * resW| ≤
      (fixupScale true resW resH paper wIn hIn).yScale * resW / 5 := by
  intro h
  have := h 1200 900 {} 595 842 (by decide) (by decide) (by norm_num) (by norm_num)
  have := (abs_le.1 this).1
  revert this
  decide +kernel

/-- **C50, where it fails: paper in pixels.** With 600 × 300 dpi and a paper of 1200 × 1200 pixels a page is made to fit 1200 pixels and
then made twice as wide. -/
theorem C50_pixels_false : ¬ ∀ (resW resH : Nat) (paper : Paper) (wIn hIn : Rat), 0 < wIn → 0 < hIn → 0 < resH → resH ∣ resW →
    (fixupScale true resW resH paper wIn hIn).w * (fixupScale true resW resH paper wIn hIn).xScale ≤ 3 / 2 * Spec.surface true paper.units paper.w resW := by
  intro h
  have := h 600 300 { units := .Pixels, w := 1200, h := 1200 } 100 100 (by norm_num) (by norm_num) (by decide) (by decide)
  revert this
  decide +kernel

/-- hypotheses that are met, with a page that is turned and centred -/
example : Spec.Compatible true PaperUnits.Millimeters 600 300 ∧ Spec.Sized true 600 300 {} ∧
    fixupScale true 600 300 {} 842 595 = ⟨dbl (834 / 100), dbl (417 / 100), -2, -2, true, 595, 842⟩ :=
  ⟨⟨by decide, by decide, .inr ⟨by decide, .inr (.inr (by decide))⟩⟩, ⟨by decide +kernel, by decide +kernel, by decide +kernel, by decide +kernel⟩, by decide +kernel⟩

/-- and with one that fits: A5 on A4 with 600 dpi -/
example : (fixupScale true 600 600 {} 420 596).h * (fixupScale true 600 600 {} 420 596).yScale ≤ Spec.wholeSteps true .Millimeters 297 600 600 ∧
    fixupScale true 600 600 {} 420 596 = ⟨dbl (1177 / 100), dbl (1177 / 100), 8, 0, false, 420, 596⟩ := by decide +kernel

end Verif.Pdf
