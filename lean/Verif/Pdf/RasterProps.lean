import Verif.Pdf.Raster
import Verif.Raster.Spec

/-! # Bitmaps of rendered pages -/

namespace Verif.Pdf

open Raster

/-! ## CMYK -/

theorem cmyk_pixel (p : Rgb) : cmyk2rgb (cmykOf p) = rgbOf p := by
  have hr : red p < 256 := Nat.mod_lt _ (by decide)
  have hg : green p < 256 := Nat.mod_lt _ (by decide)
  have hb : blue p < 256 := Nat.mod_lt _ (by decide)
  have step : ∀ m c : Nat, m < 256 → c ≤ m → (255 : UInt8) - UInt8.ofNat (255 - m) - UInt8.ofNat (m - c) = UInt8.ofNat c := by
    intro m c hm hc
    apply UInt8.toNat_inj.1
    rw [UInt8.toNat_sub, UInt8.toNat_sub]
    simp only [UInt8.toNat_ofNat, UInt8.toNat_ofNat']
    omega
  have hm : max (max (red p) (green p)) (blue p) < 256 := by omega
  simp only [cmykOf, cmyk2rgb, cmykPixelToRgb, rgbOf, List.append_nil]
  rw [step _ _ hm (by omega), step _ _ hm (by omega), step _ _ hm (by omega)]

theorem cmyk2rgb_append (p : Rgb) (rest : Bytes) : cmyk2rgb (cmykOf p ++ rest) = rgbOf p ++ cmyk2rgb rest := by
  rw [← cmyk_pixel]; simp [cmykOf, cmyk2rgb]

/-- **C12.** For every image: the bytes that are made for CMYK are turned back into the red, green and blue of every pixel, in order. -/
theorem C12_lossless (lum : Luminosity) (p : Params) (data : List Rgb) (hm : p.colorMode = .CMYK32) (hd : data.length = p.widthPx * p.heightPx) :
    ∃ bmp, copyRasterBuffer lum p data = .ok bmp ∧ bmp.length = 4 * (p.widthPx * p.heightPx) ∧
      cmyk2rgb bmp = (data.map (fun q => [UInt8.ofNat (q / 65536), UInt8.ofNat (q / 256), UInt8.ofNat q])).flatten := by
  refine ⟨(data.map cmykOf).flatten, ?_, ?_, ?_⟩
  · unfold copyRasterBuffer
    simp only [hm, eachPixel]
    rw [if_neg (by omega), List.take_of_length_le (by omega)]
  · rw [← hd]
    clear hd
    induction data with
    | nil => rfl
    | cons q qs ih => simp only [List.map_cons, List.flatten_cons, List.length_append, ih, cmykOf, List.length_cons, List.length_nil]; omega
  · clear hd
    induction data with
    | nil => rfl
    | cons q qs ih =>
      simp only [List.map_cons, List.flatten_cons, cmyk2rgb_append, ih]
      congr 1
      simp only [rgbOf, red, green, blue]
      have e : ∀ n : Nat, UInt8.ofNat (n % 256) = UInt8.ofNat n := by
        intro n; apply UInt8.toNat_inj.1; simp
      rw [e, e, e]

theorem black_pixel (p : Rgb) : ∃ c m y k, cmykOf p = [c, m, y, k] ∧ min (min c.toNat m.toNat) y.toNat = 0 := by
  refine ⟨_, _, _, _, rfl, ?_⟩
  have hr : red p < 256 := Nat.mod_lt _ (by decide)
  have hg : green p < 256 := Nat.mod_lt _ (by decide)
  have hb : blue p < 256 := Nat.mod_lt _ (by decide)
  simp only [UInt8.toNat_ofNat']
  omega

/-- **C12.** No ink that black could replace: of the four bytes of each pixel of each image one of the first three is 0. -/
theorem C12_black (lum : Luminosity) (p : Params) (data : List Rgb) (hm : p.colorMode = .CMYK32) {bmp : Bytes} (h : copyRasterBuffer lum p data = .ok bmp) (i : Nat)
    (hi : 4 * i + 3 < bmp.length) : min (min (bmp.getD (4 * i) 0).toNat (bmp.getD (4 * i + 1) 0).toNat) (bmp.getD (4 * i + 2) 0).toNat = 0 := by
  unfold copyRasterBuffer at h
  simp only [hm, eachPixel] at h
  split at h
  · cases h
  · cases h
    generalize data.take (p.widthPx * p.heightPx) = l at hi
    induction l generalizing i with
    | nil => simp at hi
    | cons q l ih =>
      obtain ⟨c, m, y, k, e, hmin⟩ := black_pixel q
      simp only [List.map_cons, List.flatten_cons, e] at hi ⊢
      cases i with
      | zero => simpa using hmin
      | succ i =>
        have := ih i (by simp at hi ⊢; omega)
        simpa [Nat.mul_succ, Nat.add_right_comm _ 4, ← Nat.add_assoc] using this

/-- an orange pixel -/
example : cmykOf 0xff8000 = [0, 127, 255, 0] ∧ cmyk2rgb [0, 127, 255, 0] = [255, 128, 0] := by decide

end Verif.Pdf
