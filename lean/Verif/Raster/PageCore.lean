import Verif.Raster.PageLemmas
import Verif.Raster.HeaderLemmas

/-! # The central lemma on one page, and facts on the parameters -/

namespace Verif.Raster

open Spec

theorem widthBytes_eq (p : Params) : p.widthBytes = .ok (rowBytes p.colorMode p.widthPx) := by
  unfold Params.widthBytes Params.bitsPerColor Params.numberOfColors rowBytes bitsPerPixel
  cases p.colorMode <;> simp <;> omega

theorem oneChunk_eq (p : Params) : oneChunk p = unit p.colorMode := by
  unfold oneChunk Params.bitsPerColor Params.numberOfColors unit bitsPerPixel
  cases p.colorMode <;> simp

theorem unit_pos (m : ColorMode) : 0 < unit m := by cases m <;> decide

theorem rowBytes_units (m : ColorMode) (w : Nat) : ∃ n, rowBytes m w = n * unit m := by
  cases m
  case Gray1 | Black1 => exact ⟨(w + 7) / 8, by simp [rowBytes, unit, bitsPerPixel]⟩
  all_goals exact ⟨w, by simp [rowBytes, unit, bitsPerPixel]; omega⟩

theorem bpp_eq (p : Params) : p.numberOfColors * p.bitsPerColor = bitsPerPixel p.colorMode := by
  unfold Params.bitsPerColor Params.numberOfColors bitsPerPixel
  cases p.colorMode <;> simp

theorem isBackside_eq (p : Params) (page : Nat) :
    isBackside p page = decide (IsBack p.duplexMode page) := by
  unfold isBackside Params.isTwoSided IsBack
  have : (page % 2 == 0) = decide (2 ∣ page) := by
    rw [Bool.eq_iff_iff]; simp [Nat.dvd_iff_mod_eq_zero]
  rw [this]
  cases p.duplexMode <;> simp

theorem backHFlip_eq (p : Params) : p.backHFlip = mirrorH p.duplexMode p.backXformMode := by
  unfold Params.backHFlip mirrorH
  cases p.duplexMode <;> cases p.backXformMode <;> decide

theorem backVFlip_eq (p : Params) : p.backVFlip = mirrorV p.duplexMode p.backXformMode := by
  unfold Params.backVFlip mirrorV
  cases p.duplexMode <;> cases p.backXformMode <;> decide

/-- The row transform as a function. -/
def flipFun (bpc c : Nat) (hflip : Bool) (r : Bytes) : Bytes :=
  match lineData bpc c hflip r with
  | .ok x => x
  | _ => []

theorem lineData_ok (p : Params) (hflip : Bool) (r : Bytes) (hr : r.length = rowBytes p.colorMode p.widthPx) :
    lineData p.bitsPerColor (unit p.colorMode) hflip r =
      .ok (flipFun p.bitsPerColor (unit p.colorMode) hflip r) ∧
    (flipFun p.bitsPerColor (unit p.colorMode) hflip r).length = r.length ∧
    (hflip = false → flipFun p.bitsPerColor (unit p.colorMode) hflip r = r) ∧
    (hflip = true → 8 ∣ p.widthPx * bitsPerPixel p.colorMode → ∀ x < p.widthPx, ∀ k < bitsPerPixel p.colorMode,
      bitAt (flipFun p.bitsPerColor (unit p.colorMode) hflip r) (bitsPerPixel p.colorMode * x + k) =
      bitAt r (bitsPerPixel p.colorMode * (p.widthPx - 1 - x) + k)) := by
  cases hflip with
  | false => simp [lineData, flipFun]
  | true =>
    by_cases h1 : p.bitsPerColor = 1
    · have hb : bitsPerPixel p.colorMode = 1 := by
        revert h1; unfold Params.bitsPerColor bitsPerPixel; cases p.colorMode <;> simp
      have hl : lineData p.bitsPerColor (unit p.colorMode) true r = .ok (r.reverse.map bitReverse) := by
        simp [lineData, flipLine, h1]
      have hfl : flipFun p.bitsPerColor (unit p.colorMode) true r = r.reverse.map bitReverse := by
        simp [flipFun, hl]
      refine ⟨by rw [hfl, hl], by simp [hfl], by simp, ?_⟩
      intro _ hd x hx k hk
      rw [hb] at hd hk ⊢
      have hlen : 8 * r.length = p.widthPx := by rw [hr, rowBytes, hb]; omega
      have hk0 : k = 0 := by omega
      subst hk0
      rw [hfl]
      simp only [Nat.one_mul, Nat.add_zero]
      rw [bitAt_flip_bits r x (by omega)]
      congr 1; omega
    · have hb : bitsPerPixel p.colorMode = 8 * unit p.colorMode := by
        revert h1; unfold Params.bitsPerColor bitsPerPixel unit; cases p.colorMode <;> simp [bitsPerPixel]
      have hrow : rowBytes p.colorMode p.widthPx = p.widthPx * unit p.colorMode := by
        unfold rowBytes; rw [hb]
        have : p.widthPx * (8 * unit p.colorMode) = 8 * (p.widthPx * unit p.colorMode) := by
          rw [Nat.mul_left_comm]
        omega
      obtain ⟨cs, hc1, hc2, hc3⟩ := exists_chunks (unit p.colorMode) p.widthPx r (by rw [hr, hrow])
      have hl : lineData p.bitsPerColor (unit p.colorMode) true r = .ok cs.reverse.flatten := by
        simp only [lineData, flipLine, h1, if_true, if_false]
        rw [← hc1, chunksOf_flatten _ (unit_pos _) cs hc3]; rfl
      have hfl : flipFun p.bitsPerColor (unit p.colorMode) true r = cs.reverse.flatten := by
        simp [flipFun, hl]
      refine ⟨by rw [hfl, hl], ?_, by simp, ?_⟩
      · rw [hfl, flatten_length_const (unit p.colorMode) _ (by simpa using hc3), List.length_reverse, hc2, hr, hrow]
      · intro _ _ x hx k hk
        rw [hb] at hk ⊢
        rw [hfl, ← hc1, Nat.mul_assoc, Nat.mul_assoc]
        rw [bitAt_flip_chunks _ cs hc3 x k (by omega) hk, hc2]

theorem rowsOf_mem {raw : Bytes} {h w : Nat} {v : Bool} {r : Bytes} (hr : r ∈ rowsOf raw h w v)
    (hlen : h * w ≤ raw.length) : r.length = w := by
  unfold rowsOf at hr
  simp only [List.mem_map, List.mem_range] at hr
  obtain ⟨y, hy, rfl⟩ := hr
  exact rowAt_length raw h w v y hy hlen

theorem rowsOf_flatten (raw : Bytes) (h w : Nat) (hlen : h * w ≤ raw.length) :
    (rowsOf raw h w false).flatten = raw.take (h * w) := by
  induction h with
  | zero => simp [rowsOf]
  | succ h ih =>
    have hle : h * w + w ≤ raw.length := by rw [Nat.succ_mul] at hlen; exact hlen
    have ih := ih (by omega)
    have : rowsOf raw (h + 1) w false = rowsOf raw h w false ++ [(raw.drop (h * w)).take w] := by
      simp [rowsOf, List.range_succ, rowAt]
    rw [this, List.flatten_append, ih, Nat.succ_mul, List.take_add]
    simp

/-- One page: the rows are encoded without trouble, and decoding gives the transformed bitmap. -/
theorem page_core (p : Params) (bmp : Bytes) (mh mv : Bool)
    (hh : p.heightPx < 2 ^ 64)
    (hlen : p.heightPx * rowBytes p.colorMode p.widthPx ≤ bmp.length) :
    ∃ body out, encodeRows p.bitsPerColor (unit p.colorMode) mh
        (rowsOf bmp p.heightPx (rowBytes p.colorMode p.widthPx) mv) = .ok body ∧
      (∀ (urf : Bool) (rest : Bytes),
        rasterToBmp (body ++ rest) (rowBytes p.colorMode p.widthPx) p.heightPx (unit p.colorMode) urf =
          .ok (out, rest)) ∧
      out.length = p.heightPx * rowBytes p.colorMode p.widthPx ∧
      (mh = false → mv = false →
        out = bmp.take (p.heightPx * rowBytes p.colorMode p.widthPx)) ∧
      ((mh = true → 8 ∣ p.widthPx * bitsPerPixel p.colorMode) →
        Transformed p.widthPx p.heightPx (rowBytes p.colorMode p.widthPx) (bitsPerPixel p.colorMode)
          mh mv bmp out) := by
  obtain ⟨n, hn⟩ := rowBytes_units p.colorMode p.widthPx
  generalize hw : rowBytes p.colorMode p.widthPx = w at *
  let rows := rowsOf bmp p.heightPx w mv
  let f := flipFun p.bitsPerColor (unit p.colorMode) mh
  have hrl : ∀ r ∈ rows, r.length = w := fun r hr => rowsOf_mem hr hlen
  have hfr : ∀ r ∈ rows, lineData p.bitsPerColor (unit p.colorMode) mh r = .ok (f r) ∧
      (f r).length = n * unit p.colorMode := by
    intro r hr
    have := lineData_ok p mh r (by rw [hrl r hr, hw])
    exact ⟨this.1, by rw [this.2.1, hrl r hr, hn]⟩
  have hrows : rows.length = p.heightPx := by simp [rows, rowsOf]
  obtain ⟨body, hb1, hb2⟩ := decodeRows_encodeRows p.bitsPerColor (unit p.colorMode) (unit_pos _) mh f n rows
    hfr (by omega)
  have hmapl : ∀ x ∈ rows.map f, x.length = w := by
    intro x hx
    simp only [List.mem_map] at hx
    obtain ⟨r, hr, rfl⟩ := hx
    rw [(hfr r hr).2, hn]
  have holen : ((rows.map f).flatten).length = p.heightPx * w := by
    rw [flatten_length_const w _ hmapl, List.length_map, hrows]
  refine ⟨body, (rows.map f).flatten, hb1, ?_, holen, ?_, ?_⟩
  · intro urf rest
    have := hb2 urf [] rest
    rw [hrows, ← hn] at this
    simpa [rasterToBmp] using this
  · intro h1 h2
    have : rows.map f = rows := by
      conv => rhs; rw [← List.map_id rows]
      apply List.map_congr_left
      intro r hr
      exact (lineData_ok p mh r (by rw [hrl r hr, hw])).2.2.1 h1
    rw [this]
    subst h2
    exact rowsOf_flatten bmp p.heightPx w hlen
  · intro hdvd
    refine ⟨holen, ?_⟩
    intro y hy x hx k hk
    have hbit : bitsPerPixel p.colorMode * x + k < 8 * w := by
      have h1 : bitsPerPixel p.colorMode * x + k < bitsPerPixel p.colorMode * (x + 1) := by
        rw [Nat.mul_succ]; omega
      have h2 : bitsPerPixel p.colorMode * (x + 1) ≤ bitsPerPixel p.colorMode * p.widthPx :=
        Nat.mul_le_mul_left _ (by omega)
      rw [Nat.mul_comm _ p.widthPx] at h2
      rw [← hw]; unfold rowBytes; omega
    rw [Nat.add_assoc, bitAt_flatten w _ hmapl y _ (by simpa [hrows] using hy) hbit]
    have hrow : (rows.map f).getD y [] = f (rowAt bmp p.heightPx w mv y) := by
      simp only [List.getD_eq_getElem?_getD, List.getElem?_map]
      simp [rows, rowsOf, List.getElem?_range hy]
    have hral : (rowAt bmp p.heightPx w mv y).length = w := rowAt_length _ _ _ _ _ hy hlen
    rw [hrow]
    have hkey : bitAt (f (rowAt bmp p.heightPx w mv y)) (bitsPerPixel p.colorMode * x + k) =
        bitAt (rowAt bmp p.heightPx w mv y)
          (bitsPerPixel p.colorMode * (if mh then p.widthPx - 1 - x else x) + k) := by
      have hld := lineData_ok p mh (rowAt bmp p.heightPx w mv y) (by rw [hral, hw])
      cases hmh : mh with
      | false => 
        have := hld.2.2.1 hmh
        simp only [f, this]; simp
      | true =>
        have := hld.2.2.2 hmh (hdvd hmh) x hx k hk
        simp only [f, this]; simp
    rw [hkey]
    unfold rowAt
    rw [bitAt_row]
    · congr 1
      rw [Nat.mul_comm w, Nat.add_assoc]
    · split
      · have h1 : bitsPerPixel p.colorMode * (p.widthPx - 1 - x) + k <
            bitsPerPixel p.colorMode * (p.widthPx - 1 - x + 1) := by
          rw [Nat.mul_succ]; omega
        have h2 : bitsPerPixel p.colorMode * (p.widthPx - 1 - x + 1) ≤
            bitsPerPixel p.colorMode * p.widthPx := Nat.mul_le_mul_left _ (by omega)
        rw [Nat.mul_comm _ p.widthPx] at h2
        rw [← hw]; unfold rowBytes; omega
      · exact hbit

end Verif.Raster
