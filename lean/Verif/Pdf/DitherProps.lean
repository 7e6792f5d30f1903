import Verif.Pdf.Luma
import Verif.Raster.PageCore

/-! # Dithering -/

namespace Verif.Pdf

namespace Spec

/-- Is there ink at this pixel of a 1-bit image with rows of `row` bytes? In a "black" image a 1 is ink, in a "gray" one a 0. -/
def Ink (black : Bool) (row : Nat) (bmp : Bytes) (line col : Nat) : Prop := Raster.Spec.bitAt bmp (8 * (row * line) + col) = black

end Spec

open Raster.Spec (bitAt)

/-! ## Bits -/

theorem ink_bit (black : Bool) (col : Nat) (b : UInt8) (j : Nat) (hj : j < 8) :
    (ink black col b).toNat.testBit (7 - j) = if j = col % 8 then black else b.toNat.testBit (7 - j) := by
  have hc : col % 8 < 8 := Nat.mod_lt _ (by decide)
  have key : ∀ c < 8, ∀ j < 8, ∀ n < 256, ∀ black : Bool, ((if black then UInt8.ofNat n ||| (0x80 >>> UInt8.ofNat c) else UInt8.ofNat n &&& ~~~(0x80 >>> UInt8.ofNat c)).toNat.testBit (7 - j)) =
      if j = c then black else n.testBit (7 - j) := by decide +kernel
  have := key (col % 8) hc j hj b.toNat (UInt8.toNat_lt b) black
  unfold ink
  rw [UInt8.ofNat_toNat] at this
  exact this

theorem bitAt_set (black : Bool) (tmp : Bytes) (row line col : Nat) (b : UInt8) (hb : tmp[row * line + col / 8]? = some b) (l c : Nat) (hc : c < 8 * row) (hcol : col < 8 * row) :
    bitAt (tmp.set (row * line + col / 8) (ink black col b)) (8 * (row * l) + c) = if l = line ∧ c = col then black else bitAt tmp (8 * (row * l) + c) := by
  have hlen : row * line + col / 8 < tmp.length := (List.getElem?_eq_some_iff.1 hb).1
  have e1 : (8 * (row * l) + c) / 8 = row * l + c / 8 := by omega
  have e2 : (8 * (row * l) + c) % 8 = c % 8 := by omega
  unfold Raster.Spec.bitAt
  rw [e1, e2]
  simp only [List.getD_eq_getElem?_getD, List.getElem?_set]
  by_cases heq : row * line + col / 8 = row * l + c / 8
  · have hl : l = line := by
      have hd1 : (row * line + col / 8) / row = line := by
        rw [Nat.mul_add_div (by omega), Nat.div_eq_of_lt (by omega)]; rfl
      have hd2 : (row * l + c / 8) / row = l := by
        rw [Nat.mul_add_div (by omega), Nat.div_eq_of_lt (by omega)]; rfl
      rw [← hd1, ← hd2, heq]
    subst hl
    have hq : col / 8 = c / 8 := by omega
    rw [if_pos heq, if_pos hlen]
    rw [← heq, hb]
    simp only [Option.getD_some]
    rw [ink_bit _ _ _ _ (Nat.mod_lt _ (by decide))]
    by_cases h : c % 8 = col % 8
    · rw [if_pos h, if_pos (by simp only [true_and]; omega)]
    · rw [if_neg h, if_neg (by simp only [true_and]; rintro rfl; exact h rfl)]
  · rw [if_neg heq]
    rw [if_neg]
    rintro ⟨rfl, rfl⟩
    exact heq rfl

/-! ## The invariant -/

/-- Before pixel `col` of line `line`. Pixels before it are decided, the others blank. -/
structure DInv (black : Bool) (data : List Rgb) (w h row line col : Nat) (s : Dither) : Prop where
  len : s.debts.length = w + 2
  tlen : s.tmp.length = row * h
  far : ∀ i d, 2 ≤ i → s.debts[i]? = some d → -63 ≤ d ∧ d ≤ 63
  near1 : ∀ d, 1 ≤ col → s.debts[col + 1]? = some d → -7 ≤ d ∧ d ≤ 7
  near0 : ∀ d, 2 ≤ col → s.debts[col]? = some d → -42 ≤ d ∧ d ≤ 42
  first : ∀ d, s.debts[0]? = some d → -((21 * (line + min col 1) : Nat) : Int) ≤ d ∧ d ≤ ((21 * (line + min col 1) : Nat) : Int)
  second : ∀ d, s.debts[1]? = some d →
    -((56 * line + 35 * min col 1 + 21 * (min col 2 - min col 1) : Nat) : Int) ≤ d ∧ d ≤ ((56 * line + 35 * min col 1 + 21 * (min col 2 - min col 1) : Nat) : Int)
  next : -112 ≤ s.nextDebt ∧ s.nextDebt ≤ 112
  done : ∀ l c, (l < line ∨ l = line ∧ c < col) → l < h → c < w → ∀ q, data[l * w + c]? = some q →
    (q = 0xffffff → ¬ Spec.Ink black row s.tmp l c) ∧ (q = 0 → Spec.Ink black row s.tmp l c)
  blank : ∀ l c, l < h → c < 8 * row → (w ≤ c ∨ ¬ (l < line ∨ l = line ∧ c < col)) → ¬ Spec.Ink black row s.tmp l c

/-- The sixteenth of a debt. -/
theorem sixteenth {d : Int} (h1 : -127 ≤ d) (h2 : d ≤ 127) : -7 ≤ d.tdiv 16 ∧ d.tdiv 16 ≤ 7 := by
  by_cases h : 0 ≤ d
  · rw [Int.tdiv_eq_ediv_of_nonneg h]; omega
  · have h3 := Int.neg_tdiv (a := -d) (b := 16)
    rw [Int.neg_neg] at h3
    rw [h3, Int.tdiv_eq_ediv_of_nonneg (by omega)]; omega

theorem int32_ok {n : Int} (h1 : -2147483648 ≤ n) (h2 : n ≤ 2147483647) : int32 n = .ok n := by
  unfold int32; rw [if_pos ⟨h1, h2⟩]

theorem geti_ok {α : Type} {l : List α} {i : Nat} {x : α} (h : l[i]? = some x) : geti l i = .ok x := by
  unfold geti; rw [h]

theorem seti_ok {α : Type} {l : List α} {i : Nat} (x : α) (h : i < l.length) : seti l i x = .ok (l.set i x) := by
  unfold seti; rw [if_pos h]

/-- What one pixel does, when everything is in range. -/
theorem pixel_eq {plus : Rgb → Int → Int} {black : Bool} {data : List Rgb} {w sb sp col : Nat} {s : Dither} {q : Rgb} {d0 d1 d2 x : Int} {b : UInt8} {new : Int}
    (hlen : s.debts.length = w + 2) (hcol : col < w) (hq : data[sp + col]? = some q) (hnew : new = if plus q s.nextDebt < 128 then 0 else 255)
    (hx : x = (plus q s.nextDebt - new).tdiv 16) (hd : -127 ≤ plus q s.nextDebt - new ∧ plus q s.nextDebt - new ≤ 127)
    (h0 : s.debts[col]? = some d0) (h1 : s.debts[col + 1]? = some d1) (h2 : s.debts[col + 2]? = some d2) (hb : s.tmp[sb + col / 8]? = some b)
    (r0 : -2147483648 ≤ d0 + 3 * x ∧ d0 + 3 * x ≤ 2147483647) (r1 : -2147483648 ≤ d1 + 5 * x ∧ d1 + 5 * x ≤ 2147483647)
    (r2 : -2147483648 ≤ d2 + 7 * x ∧ d2 + 7 * x ≤ 2147483647) :
    ditherPixel plus black data sb sp col s = .ok
      { debts := ((s.debts.set col (d0 + 3 * x)).set (col + 1) (d1 + 5 * x)).set (col + 2) x, nextDebt := d2 + 7 * x,
        tmp := if new = 0 then s.tmp.set (sb + col / 8) (ink black col b) else s.tmp } := by
  unfold ditherPixel
  simp only [bind, Outcome.bind, geti_ok hq, geti_ok h2, geti_ok h0, ← hnew]
  rw [int32_ok (by omega) (by omega)]
  simp only [← hx]
  rw [int32_ok r2.1 r2.2]
  simp only []
  rw [int32_ok r0.1 r0.2]
  simp only []
  rw [seti_ok _ (by omega)]
  simp only []
  rw [geti_ok (x := d1) (by rw [List.getElem?_set_ne (by omega)]; exact h1)]
  simp only []
  rw [int32_ok r1.1 r1.2]
  simp only []
  rw [seti_ok _ (by rw [List.length_set]; omega)]
  simp only []
  rw [seti_ok _ (by rw [List.length_set, List.length_set]; omega)]
  simp only []
  by_cases hn : new = 0
  · rw [if_pos hn, if_pos hn, geti_ok hb]
    simp only []
    rw [seti_ok _ (List.getElem?_eq_some_iff.1 hb).1]; rfl
  · rw [if_neg hn, if_neg hn]; rfl

theorem exists_get {α : Type} {l : List α} {i : Nat} (h : i < l.length) : ∃ x, l[i]? = some x := ⟨_, List.getElem?_eq_getElem h⟩

/-- One pixel keeps the invariant, and is defined. -/
theorem pixel_inv {plus : Rgb → Int → Int} (hp : Spec.Sums plus) {black : Bool} {data : List Rgb} {w h row line col : Nat} (hrow : w ≤ 8 * row)
    (hdata : w * h ≤ data.length) (hh : 56 * h ≤ 2147483647) (hl : line < h) (hc : col < w) {s : Dither} (inv : DInv black data w h row line col s) :
    ∃ s', ditherPixel plus black data (line * row) (line * w) col s = .ok s' ∧ DInv black data w h row line (col + 1) s' := by
  have hidx : line * w + col < data.length := by
    have h1 : line * w + w ≤ h * w := by rw [← Nat.succ_mul]; exact Nat.mul_le_mul_right _ hl
    rw [Nat.mul_comm h w] at h1
    omega
  have hbidx : line * row + col / 8 < s.tmp.length := by
    rw [inv.tlen]
    have h1 : line * row + row ≤ h * row := by rw [← Nat.succ_mul]; exact Nat.mul_le_mul_right _ hl
    rw [Nat.mul_comm h row] at h1
    omega
  obtain ⟨q, hq⟩ := exists_get hidx
  obtain ⟨b, hb⟩ := exists_get hbidx
  have hlen := inv.len
  obtain ⟨d0, h0⟩ := exists_get (l := s.debts) (i := col) (by omega)
  obtain ⟨d1, h1⟩ := exists_get (l := s.debts) (i := col + 1) (by omega)
  obtain ⟨d2, h2⟩ := exists_get (l := s.debts) (i := col + 2) (by omega)
  have hnext := inv.next
  have low := hp.low q s.nextDebt (by omega) (by omega)
  have high := hp.high q s.nextDebt (by omega) (by omega)
  obtain ⟨new, hnew⟩ : ∃ n : Int, n = if plus q s.nextDebt < 128 then 0 else 255 := ⟨_, rfl⟩
  have hdebt : -127 ≤ plus q s.nextDebt - new ∧ plus q s.nextDebt - new ≤ 127 := by
    rw [hnew]; split <;> omega
  obtain ⟨x, hx⟩ : ∃ x : Int, x = (plus q s.nextDebt - new).tdiv 16 := ⟨_, rfl⟩
  have hxb : -7 ≤ x ∧ x ≤ 7 := hx ▸ sixteenth hdebt.1 hdebt.2
  have b2 := inv.far _ _ (by omega) h2
  -- the values below
  have b0 : (2 ≤ col → -42 ≤ d0 ∧ d0 ≤ 42) := fun h => inv.near0 _ h h0
  have b1 : (1 ≤ col → -7 ≤ d1 ∧ d1 ≤ 7) := fun h => inv.near1 _ h h1
  have r0 : -2147483648 ≤ d0 + 3 * x ∧ d0 + 3 * x ≤ 2147483647 := by
    by_cases c0 : col = 0
    · subst c0; have := inv.first _ h0; omega
    · by_cases c1 : col = 1
      · subst c1; have := inv.second _ h0; omega
      · have := b0 (by omega); omega
  have r1 : -2147483648 ≤ d1 + 5 * x ∧ d1 + 5 * x ≤ 2147483647 := by
    by_cases c0 : col = 0
    · subst c0; have := inv.second _ h1; omega
    · have := b1 (by omega); omega
  refine ⟨_, pixel_eq hlen hc hq hnew hx hdebt h0 h1 h2 hb r0 r1 (by omega), ?_⟩
  have get : ∀ i d, (((s.debts.set col (d0 + 3 * x)).set (col + 1) (d1 + 5 * x)).set (col + 2) x)[i]? = some d →
      (i = col ∧ d = d0 + 3 * x) ∨ (i = col + 1 ∧ d = d1 + 5 * x) ∨ (i = col + 2 ∧ d = x) ∨ (i ≠ col ∧ i ≠ col + 1 ∧ i ≠ col + 2 ∧ s.debts[i]? = some d) := by
    intro i d hd
    simp only [List.getElem?_set, List.length_set] at hd
    by_cases e2 : col + 2 = i
    · rw [if_pos e2, if_pos (by omega)] at hd
      cases hd
      exact .inr (.inr (.inl ⟨e2.symm, rfl⟩))
    · rw [if_neg e2] at hd
      by_cases e1 : col + 1 = i
      · rw [if_pos e1, if_pos (by omega)] at hd
        cases hd
        exact .inr (.inl ⟨e1.symm, rfl⟩)
      · rw [if_neg e1] at hd
        by_cases e0 : col = i
        · rw [if_pos e0, if_pos (by omega)] at hd
          cases hd
          exact .inl ⟨e0.symm, rfl⟩
        · rw [if_neg e0] at hd
          exact .inr (.inr (.inr ⟨fun h => e0 h.symm, fun h => e1 h.symm, fun h => e2 h.symm, hd⟩))
  have bits : ∀ l c, c < 8 * row → bitAt (if new = 0 then s.tmp.set (line * row + col / 8) (ink black col b) else s.tmp) (8 * (row * l) + c) =
      if new = 0 ∧ l = line ∧ c = col then black else bitAt s.tmp (8 * (row * l) + c) := by
    intro l c hc8
    rw [Nat.mul_comm line row] at hb ⊢
    by_cases hn : new = 0
    · rw [if_pos hn, bitAt_set _ _ _ _ _ _ hb _ _ hc8 (by omega)]
      simp only [hn, true_and]
    · rw [if_neg hn, if_neg (by rintro ⟨h, -⟩; exact hn h)]
  constructor
  · simp only [List.length_set]; exact hlen
  · simp only []; split
    · rw [List.length_set]; exact inv.tlen
    · exact inv.tlen
  · intro i d hi hd
    rcases get i d hd with ⟨rfl, rfl⟩ | ⟨rfl, rfl⟩ | ⟨rfl, rfl⟩ | ⟨-, -, -, hd⟩
    · have := b0 hi; omega
    · have := b1 (by omega); omega
    · omega
    · exact inv.far _ _ hi hd
  · intro d _ hd
    rcases get _ d hd with ⟨h, rfl⟩ | ⟨h, rfl⟩ | ⟨h, rfl⟩ | ⟨-, -, h, hd⟩ <;> omega
  · intro d hi hd
    rcases get _ d hd with ⟨h, rfl⟩ | ⟨h, rfl⟩ | ⟨h, rfl⟩ | ⟨-, h, -, hd⟩
    · omega
    · have := b1 (by omega); omega
    · omega
    · omega
  · intro d hd
    rcases get _ d hd with ⟨h, rfl⟩ | ⟨h, rfl⟩ | ⟨h, rfl⟩ | ⟨h, -, -, hd⟩
    · subst h; have := inv.first _ h0; omega
    · omega
    · omega
    · have := inv.first _ hd; omega
  · intro d hd
    rcases get _ d hd with ⟨h, rfl⟩ | ⟨h, rfl⟩ | ⟨h, rfl⟩ | ⟨h, h', -, hd⟩
    · have hc1 : col = 1 := by omega
      subst hc1; have := inv.second _ h0; omega
    · have hc0 : col = 0 := by omega
      subst hc0; have := inv.second _ h1; omega
    · omega
    · have := inv.second _ hd; omega
  · simp only []; omega
  · intro l c hlc hlh hcw q' hq'
    unfold Spec.Ink
    simp only []
    rw [bits l c (by omega)]
    by_cases here : l = line ∧ c = col
    · obtain ⟨rfl, rfl⟩ := here
      rw [hq] at hq'
      cases hq'
      refine ⟨fun hw => ?_, fun hbk => ?_⟩
      · subst hw
        have := hp.white s.nextDebt (by omega) (by omega)
        have hn : new ≠ 0 := by rw [hnew, if_neg (by omega)]; decide
        rw [if_neg (by rintro ⟨h, -⟩; exact hn h)]
        exact inv.blank _ _ hlh (by omega) (.inr (by omega))
      · subst hbk
        have := hp.black s.nextDebt (by omega) (by omega)
        have hn : new = 0 := by rw [hnew, if_pos (by omega)]
        rw [if_pos ⟨hn, rfl, rfl⟩]
    · rw [if_neg (by rintro ⟨-, h⟩; exact here h)]
      exact inv.done l c (by omega) hlh hcw q' hq'
  · intro l c hlh hc8 hor
    unfold Spec.Ink
    simp only []
    rw [bits l c hc8, if_neg (by rintro ⟨-, rfl, rfl⟩; omega)]
    exact inv.blank l c hlh hc8 (by omega)

theorem cols_inv {plus : Rgb → Int → Int} (hp : Spec.Sums plus) {black : Bool} {data : List Rgb} {w h row line : Nat} (hrow : w ≤ 8 * row)
    (hdata : w * h ≤ data.length) (hh : 56 * h ≤ 2147483647) (hl : line < h) (n col : Nat) (hn : col + n = w) {s : Dither} (inv : DInv black data w h row line col s) :
    ∃ s', ditherCols plus black data (line * row) (line * w) n col s = .ok s' ∧ DInv black data w h row line w s' := by
  induction n generalizing col s with
  | zero => exact ⟨s, rfl, by rw [show w = col by omega] at inv ⊢; exact inv⟩
  | succ n ih =>
    obtain ⟨s1, e1, i1⟩ := pixel_inv hp hrow hdata hh hl (by omega) inv
    obtain ⟨s2, e2, i2⟩ := ih (col + 1) (by omega) i1
    exact ⟨s2, by simp only [ditherCols, e1, Outcome.bind, e2], i2⟩

theorem next_line {black : Bool} {data : List Rgb} {w h row line : Nat} {s : Dither} (inv : DInv black data w h row line w s) :
    DInv black data w h row (line + 1) 0 { s with nextDebt := 0 } := by
  refine ⟨inv.len, inv.tlen, inv.far, fun _ h => by omega, fun _ h => by omega, ?_, ?_, by show (-112 : Int) ≤ 0 ∧ (0 : Int) ≤ 112; decide, ?_, ?_⟩
  · intro d hd; have := inv.first d hd; omega
  · intro d hd; have := inv.second d hd; omega
  · intro l c hlc hlh hcw; exact inv.done l c (by omega) hlh hcw
  · intro l c hlh hc8 hor; exact inv.blank l c hlh hc8 (by omega)

theorem lines_inv {plus : Rgb → Int → Int} (hp : Spec.Sums plus) {black : Bool} {data : List Rgb} {w h row : Nat} (hrow : w ≤ 8 * row)
    (hdata : w * h ≤ data.length) (hh : 56 * h ≤ 2147483647) (n line : Nat) (hn : line + n = h) {s : Dither} (inv : DInv black data w h row line 0 { s with nextDebt := 0 }) :
    ∃ s', ditherLines plus black data w row n line s = .ok s' ∧ DInv black data w h row h 0 { s' with nextDebt := 0 } := by
  induction n generalizing line s with
  | zero => exact ⟨s, rfl, by rw [show h = line by omega] at inv ⊢; exact inv⟩
  | succ n ih =>
    obtain ⟨s1, e1, i1⟩ := cols_inv hp hrow hdata hh (by omega) w 0 (by omega) inv
    obtain ⟨s2, e2, i2⟩ := ih (line + 1) (by omega) (next_line i1)
    exact ⟨s2, by simp only [ditherLines, e1, Outcome.bind, e2], i2⟩

theorem start_inv (black : Bool) (data : List Rgb) (w h row : Nat) : DInv black data w h row 0 0 { ditherStart black w (row * h) with nextDebt := 0 } := by
  have get : ∀ (i : Nat) (d : Int), (List.replicate (w + 2) (0 : Int))[i]? = some d → d = 0 := by
    intro i d hd
    rw [List.getElem?_replicate] at hd
    split at hd <;> simp_all
  refine ⟨by simp [ditherStart], by simp [ditherStart], ?_, fun _ h => by omega, fun _ h => by omega, ?_, ?_, by show (-112 : Int) ≤ 0 ∧ (0 : Int) ≤ 112; decide, ?_, ?_⟩
  · intro i d _ hd; rw [get i d hd]; omega
  · intro d hd; rw [get _ d hd]; omega
  · intro d hd; rw [get _ d hd]; omega
  · intro l c hlc; omega
  · intro l c hlh hc8 _
    unfold Spec.Ink Raster.Spec.bitAt ditherStart
    have hb : (8 * (row * l) + c) / 8 < row * h := by
      have h1 : row * l + row ≤ row * h := by rw [← Nat.mul_succ]; exact Nat.mul_le_mul_left _ hlh
      omega
    simp only [List.getD_eq_getElem?_getD, List.getElem?_replicate, if_pos hb, Option.getD_some]
    have hj : (8 * (row * l) + c) % 8 < 8 := Nat.mod_lt _ (by decide)
    generalize (8 * (row * l) + c) % 8 = j at hj
    have key : ∀ j < 8, ∀ black : Bool, ¬ ((if black = true then (0 : UInt8) else 255).toNat.testBit (7 - j)) = black := by decide +kernel
    exact key j hj black

/-! ## The property -/

theorem oneBit_eq (lum : Luminosity) (p : Params) (data : List Rgb) (hm : p.colorMode = .Gray1 ∨ p.colorMode = .Black1) :
    copyRasterBuffer lum p data = (ditherLines lum.plus p.isBlack data p.widthPx ((p.widthPx + 7) / 8) p.heightPx 0
      (ditherStart p.isBlack p.widthPx ((p.widthPx + 7) / 8 * p.heightPx))).bind (fun s => .ok s.tmp) := by
  have hw : p.widthBytes = .ok ((p.widthPx + 7) / 8) := by
    rw [Raster.widthBytes_eq]
    rcases hm with h | h <;> rw [h] <;> simp [Raster.Spec.rowBytes, Raster.Spec.bitsPerPixel]
  rcases hm with h | h <;> simp only [copyRasterBuffer, h, hw, bind, Outcome.bind] <;> rfl

/-- **C49.** For every image of up to 38 million lines: every array access is within the array and no integer overflows (the outcome is neither
undefined nor an exception); the bitmap has the right size; white pixels stay white and black pixels black wherever they are, and the bits
that fill up the lines are blank. Missing: images of more lines (`C49_false`; cairo does not make surfaces of more than 32767 lines). -/
theorem C49_partial {lum : Luminosity} (hp : Spec.Sums lum.plus) {p : Params} (hm : p.colorMode = .Gray1 ∨ p.colorMode = .Black1) {data : List Rgb}
    (hd : data.length = p.widthPx * p.heightPx) (hh : p.heightPx ≤ 38347922) :
    ∃ bmp, copyRasterBuffer lum p data = .ok bmp ∧ bmp.length = (p.widthPx + 7) / 8 * p.heightPx ∧
      (∀ line < p.heightPx, ∀ col < p.widthPx,
        (data[line * p.widthPx + col]? = some 0xffffff → ¬ Spec.Ink (p.colorMode = .Black1) ((p.widthPx + 7) / 8) bmp line col) ∧
        (data[line * p.widthPx + col]? = some 0 → Spec.Ink (p.colorMode = .Black1) ((p.widthPx + 7) / 8) bmp line col)) ∧
      (∀ line < p.heightPx, ∀ col, p.widthPx ≤ col → col < 8 * ((p.widthPx + 7) / 8) → ¬ Spec.Ink (p.colorMode = .Black1) ((p.widthPx + 7) / 8) bmp line col) := by
  have hb : p.isBlack = decide (p.colorMode = .Black1) := by
    rcases hm with h | h <;> simp [Params.isBlack, h]
  rw [← hb]
  obtain ⟨s, e, inv⟩ := lines_inv hp (row := (p.widthPx + 7) / 8) (by omega) (Nat.le_of_eq hd.symm) (by omega) p.heightPx 0 (by omega)
    (start_inv p.isBlack data p.widthPx p.heightPx _)
  refine ⟨s.tmp, by rw [oneBit_eq lum p data hm, e]; rfl, inv.tlen, ?_, ?_⟩
  · intro line hl col hc
    exact ⟨fun hq => (inv.done line col (.inl hl) hl hc _ hq).1 rfl, fun hq => (inv.done line col (.inl hl) hl hc _ hq).2 rfl⟩
  · intro line hl col h1 h2
    exact inv.blank line col hl h2 (.inl h1)

/-- **C49, the error terms.** Every debt that goes into a pixel, in every state of the conversion of an image of up to 38 million lines, is
between -112 and 112, and every entry of the array that is read again between -63 and 63, regardless of the size of the image. -/
theorem C49_debts_partial {plus : Rgb → Int → Int} (hp : Spec.Sums plus) {black : Bool} {data : List Rgb} {w h : Nat} (hd : data.length = w * h) (hh : h ≤ 38347922)
    {line col : Nat} (hl : line < h) (hc : col ≤ w) :
    ∃ s0 s, ditherLines plus black data w ((w + 7) / 8) line 0 (ditherStart black w ((w + 7) / 8 * h)) = .ok s0 ∧
      ditherCols plus black data (line * ((w + 7) / 8)) (line * w) col 0 { s0 with nextDebt := 0 } = .ok s ∧
      (-112 ≤ s.nextDebt ∧ s.nextDebt ≤ 112) ∧ s.debts.length = w + 2 ∧ (∀ i d, 2 ≤ i → s.debts[i]? = some d → -63 ≤ d ∧ d ≤ 63) := by
  have lines : ∀ n line s, line + n ≤ h → DInv black data w h ((w + 7) / 8) line 0 { s with nextDebt := 0 } →
      ∃ s', ditherLines plus black data w ((w + 7) / 8) n line s = .ok s' ∧ DInv black data w h ((w + 7) / 8) (line + n) 0 { s' with nextDebt := 0 } := by
    intro n
    induction n with
    | zero => intro line s _ inv; exact ⟨s, rfl, inv⟩
    | succ n ih =>
      intro line s hle inv
      obtain ⟨s1, e1, i1⟩ := cols_inv hp (by omega) (Nat.le_of_eq hd.symm) (by omega) (by omega) w 0 (by omega) inv
      obtain ⟨s2, e2, i2⟩ := ih (line + 1) s1 (by omega) (next_line i1)
      exact ⟨s2, by simp only [ditherLines, e1, Outcome.bind, e2], by rw [show line + (n + 1) = line + 1 + n by omega]; exact i2⟩
  have cols : ∀ n col s, col + n ≤ w → DInv black data w h ((w + 7) / 8) line col s →
      ∃ s', ditherCols plus black data (line * ((w + 7) / 8)) (line * w) n col s = .ok s' ∧ DInv black data w h ((w + 7) / 8) line (col + n) s' := by
    intro n
    induction n with
    | zero => intro col s _ inv; exact ⟨s, rfl, inv⟩
    | succ n ih =>
      intro col s hle inv
      obtain ⟨s1, e1, i1⟩ := pixel_inv hp (by omega) (Nat.le_of_eq hd.symm) (by omega) hl (by omega) inv
      obtain ⟨s2, e2, i2⟩ := ih (col + 1) s1 (by omega) i1
      exact ⟨s2, by simp only [ditherCols, e1, Outcome.bind, e2], by rw [show col + (n + 1) = col + 1 + n by omega]; exact i2⟩
  obtain ⟨s0, e0, i0⟩ := lines line 0 _ (by omega) (start_inv black data w h _)
  rw [Nat.zero_add] at i0
  obtain ⟨s, e, i⟩ := cols col 0 _ (by omega) i0
  exact ⟨s0, s, e0, e, i.next, i.len, i.far⟩

/-! ## Where it fails

The first two entries of the array are added to in each line and never set. -/

/-- A pixel whose second debt overflows. -/
theorem pixel_ub {plus : Rgb → Int → Int} {black : Bool} {data : List Rgb} {w sb sp col : Nat} {s : Dither} {q : Rgb} {d0 d1 d2 x : Int} {new : Int}
    (hlen : s.debts.length = w + 2) (hcol : col < w) (hq : data[sp + col]? = some q) (hnew : new = if plus q s.nextDebt < 128 then 0 else 255)
    (hx : x = (plus q s.nextDebt - new).tdiv 16) (hd : -127 ≤ plus q s.nextDebt - new ∧ plus q s.nextDebt - new ≤ 127)
    (h0 : s.debts[col]? = some d0) (h1 : s.debts[col + 1]? = some d1) (h2 : s.debts[col + 2]? = some d2)
    (r0 : -2147483648 ≤ d0 + 3 * x ∧ d0 + 3 * x ≤ 2147483647) (r1 : 2147483647 < d1 + 5 * x)
    (r2 : -2147483648 ≤ d2 + 7 * x ∧ d2 + 7 * x ≤ 2147483647) :
    ditherPixel plus black data sb sp col s = .ub := by
  unfold ditherPixel
  simp only [bind, Outcome.bind, geti_ok hq, geti_ok h2, geti_ok h0, ← hnew]
  rw [int32_ok (by omega) (by omega)]
  simp only [← hx]
  rw [int32_ok r2.1 r2.2]
  simp only []
  rw [int32_ok r0.1 r0.2]
  simp only []
  rw [seti_ok _ (by omega)]
  simp only []
  rw [geti_ok (x := d1) (by rw [List.getElem?_set_ne (by omega)]; exact h1)]
  simp only []
  have : int32 (d1 + 5 * x) = .ub := by unfold int32; rw [if_neg (by omega)]
  rw [this]

theorem gray100 : codeLuminosity.plus 0x646464 0 = 100 := by decide +kernel

/-- A line of an image one pixel wide that is gray. -/
theorem gray_line {n k : Nat} {data : List Rgb} {s : Dither} {z : Int} (hs : s.debts = [18 * (n : Int), 30 * (n : Int), z]) (hz : z = 0 ∨ z = 6)
    (hq : data[k]? = some 0x646464) (hb : k < s.tmp.length) (hn : 30 * n ≤ 2147483647) :
    (30 * (n + 1) ≤ 2147483647 → ∃ s', ditherCols codeLuminosity.plus false data (k * 1) (k * 1) 1 0 { s with nextDebt := 0 } = .ok s' ∧
      s'.debts = [18 * ((n + 1 : Nat) : Int), 30 * ((n + 1 : Nat) : Int), 6] ∧ s'.tmp.length = s.tmp.length) ∧
    (2147483647 < 30 * (n + 1) → ditherCols codeLuminosity.plus false data (k * 1) (k * 1) 1 0 { s with nextDebt := 0 } = .ub) := by
  have hnew : (0 : Int) = if codeLuminosity.plus 0x646464 0 < 128 then 0 else 255 := by rw [gray100]; decide
  have hx : (6 : Int) = (codeLuminosity.plus 0x646464 0 - 0).tdiv 16 := by rw [gray100]; decide
  have hd : -127 ≤ codeLuminosity.plus 0x646464 0 - 0 ∧ codeLuminosity.plus 0x646464 0 - 0 ≤ 127 := by rw [gray100]; decide
  obtain ⟨b, hb⟩ := exists_get hb
  refine ⟨fun h => ?_, fun h => ?_⟩
  · refine ⟨_, by
      simp only [ditherCols]
      rw [pixel_eq (s := { s with nextDebt := 0 }) (w := 1) (q := 0x646464) (new := 0) (x := 6) (d0 := 18 * (n : Int)) (d1 := 30 * (n : Int)) (d2 := z) (b := b)
        (by rw [hs]; rfl) (by omega) (by rw [Nat.mul_one]; exact hq) hnew hx hd (by rw [hs]; rfl) (by rw [hs]; rfl) (by rw [hs]; rfl)
        (by rw [Nat.mul_one]; exact hb) (by omega) (by omega) (by omega)]
      rfl, ?_, ?_⟩
    · simp only [hs, List.set_cons_zero, List.set_cons_succ]
      congr 1
    · simp
  · simp only [ditherCols]
    rw [pixel_ub (s := { s with nextDebt := 0 }) (w := 1) (q := 0x646464) (new := 0) (x := 6) (d0 := 18 * (n : Int)) (d1 := 30 * (n : Int)) (d2 := z)
        (by rw [hs]; rfl) (by omega) (by rw [Nat.mul_one]; exact hq) hnew hx hd (by rw [hs]; rfl) (by rw [hs]; rfl) (by rw [hs]; rfl)
        (by omega) (by omega) (by omega)]
    rfl

theorem gray_lines {data : List Rgb} {h : Nat} (hdata : ∀ k < h, data[k]? = some 0x646464) (n k : Nat) {s : Dither} {z : Int}
    (hs : s.debts = [18 * (k : Int), 30 * (k : Int), z]) (hz : z = 0 ∨ z = 6) (ht : s.tmp.length = h) (hk : k + n ≤ h) (hr : 30 * k ≤ 2147483647) :
    (30 * (k + n) ≤ 2147483647 → ∃ s' z', ditherLines codeLuminosity.plus false data 1 1 n k s = .ok s' ∧ s'.debts = [18 * ((k + n : Nat) : Int), 30 * ((k + n : Nat) : Int), z']) ∧
    (2147483647 < 30 * (k + n) → ditherLines codeLuminosity.plus false data 1 1 n k s = .ub) := by
  induction n generalizing k s z with
  | zero => exact ⟨fun _ => ⟨s, z, rfl, hs⟩, fun h => by omega⟩
  | succ n ih =>
    obtain ⟨g1, g2⟩ := gray_line hs hz (hdata k (by omega)) (by omega) hr
    by_cases hc : 30 * (k + 1) ≤ 2147483647
    · obtain ⟨s1, e1, d1, l1⟩ := g1 hc
      obtain ⟨i1, i2⟩ := ih (k + 1) d1 (.inr rfl) (by omega) (by omega) hc
      rw [show k + (n + 1) = k + 1 + n by omega]
      refine ⟨fun h => ?_, fun h => ?_⟩
      · obtain ⟨s', z', e, d⟩ := i1 h
        exact ⟨s', z', by simp only [ditherLines, e1, Outcome.bind, e], d⟩
      · simp only [ditherLines, e1, Outcome.bind, i2 h]
    · refine ⟨fun h => by omega, fun _ => ?_⟩
      simp only [ditherLines, g2 (by omega), Outcome.bind]

/-- **C49, where it fails: bounds.** In an image one pixel wide and gray the second entry of the array grows with every line, beyond every bound below the largest `int`. -/
theorem C49_bounds_false (bound : Nat) (hb : bound ≤ 2147483617) :
    ∃ (h : Nat) (s : Dither) (d : Int), ditherLines codeLuminosity.plus false (List.replicate h 0x646464) 1 1 h 0 (ditherStart false 1 (1 * h)) = .ok s ∧
      s.debts[1]? = some d ∧ (bound : Int) < d := by
  have hdata : ∀ k < bound / 30 + 1, (List.replicate (bound / 30 + 1) (0x646464 : Rgb))[k]? = some 0x646464 := by
    intro k hk; rw [List.getElem?_replicate, if_pos hk]
  obtain ⟨s, z, e, d⟩ := (gray_lines hdata (bound / 30 + 1) 0 (s := ditherStart false 1 (1 * (bound / 30 + 1))) (z := 0) rfl (.inl rfl)
    (by simp [ditherStart]) (by omega) (by omega)).1 (by omega)
  refine ⟨bound / 30 + 1, s, 30 * ((0 + (bound / 30 + 1) : Nat) : Int), e, by rw [d]; rfl, by omega⟩

/-- **C49, where it fails: overflow.** A gray image, one pixel wide and of 71582789 lines, makes an `int` overflow, which is undefined. -/
theorem C49_false : ¬ ∀ (p : Params) (data : List Rgb), p.colorMode = .Gray1 → data.length = p.widthPx * p.heightPx →
    ∃ bmp, copyRasterBuffer codeLuminosity p data = .ok bmp := by
  intro h
  have hdata : ∀ k < 71582789, (List.replicate 71582789 (0x646464 : Rgb))[k]? = some 0x646464 := by
    intro k hk; rw [List.getElem?_replicate, if_pos hk]
  have hu := (gray_lines hdata 71582789 0 (s := ditherStart false 1 (1 * 71582789)) (z := 0) rfl (.inl rfl) (by simp only [ditherStart, List.length_replicate, Nat.one_mul]) (by omega) (by omega)).2 (by omega)
  have hp : ∀ p : Params, p.colorMode = .Gray1 → p.widthPx = 1 → p.heightPx = 71582789 → False := by
    intro p h1 h2 h3
    obtain ⟨bmp, hb⟩ := h p (List.replicate 71582789 0x646464) h1 (by rw [h2, h3, List.length_replicate])
    rw [oneBit_eq _ _ _ (.inl h1), h2, h3, show p.isBlack = false by simp [Params.isBlack, h1], show (1 + 7) / 8 = 1 from rfl, hu] at hb
    cases hb
  exact hp { colorMode := .Gray1, widthPx := 1, heightPx := 71582789 } rfl rfl rfl

/-- an image that meets the hypotheses, and its conversion: white, black, two grays -/
example : Spec.Sums codeLuminosity.plus ∧ [0xffffff, 0, 0x808080, 0x404040].length = 4 * 1 ∧
    copyRasterBuffer codeLuminosity { colorMode := .Black1, widthPx := 4, heightPx := 1 } [0xffffff, 0, 0x808080, 0x404040] = .ok [0x70] :=
  ⟨C49_code_sums, rfl, by decide +kernel⟩

end Verif.Pdf
