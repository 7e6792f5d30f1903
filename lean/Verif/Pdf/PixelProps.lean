import Verif.Pdf.RasterProps
import Verif.Pdf.Luma

/-!
# Property theorems on the pixels of 8-bit bitmaps: C62
-/

namespace Verif.Pdf

theorem map_singleton_flatten (data : List Rgb) (f : Rgb → UInt8) : (data.map (fun q => [f q])).flatten = data.map f := by
  induction data with
  | nil => rfl
  | cons a l ih => simp [ih]

/-- **C62, gray.** The bitmap of a page in 8-bit gray has one byte per pixel: its luminosity, cut off to a whole number. -/
theorem C62_gray {lum : Luminosity} (hl : Spec.Rounds lum) {p : Params} (hm : p.colorMode = .Gray8) {data : List Rgb}
    (hd : data.length = p.widthPx * p.heightPx) :
    ∃ bmp, copyRasterBuffer lum p data = .ok bmp ∧ bmp.length = p.widthPx * p.heightPx ∧
      ∀ (i : Nat) (q : Nat) (b : UInt8), data[i]? = some q → bmp[i]? = some b →
        1000 * b.toNat ≤ Spec.luma1000 q ∧ Spec.luma1000 q ≤ 1000 * b.toNat + 1000 := by
  refine ⟨data.map lum.gray, ?_, by simpa using hd, ?_⟩
  · unfold copyRasterBuffer
    simp only [hm, eachPixel]
    rw [if_neg (by omega), List.take_of_length_le (by omega)]
    simp only [Params.isBlack, hm, Bool.false_eq_true, if_false]
    rw [map_singleton_flatten]
  · intro i q b h1 h2
    rw [List.getElem?_map, h1] at h2
    cases h2
    exact hl.gray q

/-- **C62, black.** In 8-bit black the bytes are the amount of ink: what is missing to 255. -/
theorem C62_black {lum : Luminosity} (hl : Spec.Rounds lum) {p : Params} (hm : p.colorMode = .Black8) {data : List Rgb}
    (hd : data.length = p.widthPx * p.heightPx) :
    ∃ bmp, copyRasterBuffer lum p data = .ok bmp ∧ bmp.length = p.widthPx * p.heightPx ∧
      ∀ (i : Nat) (q : Nat) (b : UInt8), data[i]? = some q → bmp[i]? = some b →
        1000 * b.toNat + Spec.luma1000 q ≤ 255000 ∧ 255000 ≤ 1000 * b.toNat + Spec.luma1000 q + 1000 := by
  refine ⟨data.map lum.black, ?_, by simpa using hd, ?_⟩
  · unfold copyRasterBuffer
    simp only [hm, eachPixel]
    rw [if_neg (by omega), List.take_of_length_le (by omega)]
    simp only [Params.isBlack, hm, if_true]
    rw [map_singleton_flatten]
  · intro i q b h1 h2
    rw [List.getElem?_map, h1] at h2
    cases h2
    exact hl.black q

/-- **C62, color.** In sRGB the bytes are red, green and blue of the pixels, exactly. -/
theorem C62_color (lum : Luminosity) {p : Params} (hm : p.colorMode = .sRGB24) {data : List Rgb}
    (hd : data.length = p.widthPx * p.heightPx) :
    ∃ bmp, copyRasterBuffer lum p data = .ok bmp ∧ bmp.length = 3 * (p.widthPx * p.heightPx) ∧
      ∀ (i q : Nat), data[i]? = some q → ((bmp.drop (3 * i)).take 3).map UInt8.toNat = [(Spec.rgb q).1, (Spec.rgb q).2.1, (Spec.rgb q).2.2] := by
  refine ⟨(data.map rgbOf).flatten, ?_, ?_, ?_⟩
  · unfold copyRasterBuffer
    simp only [hm, eachPixel]
    rw [if_neg (by omega), List.take_of_length_le (by omega)]
  · rw [← hd]
    clear hd hm
    induction data with
    | nil => rfl
    | cons a l ih => simp only [List.map_cons, List.flatten_cons, List.length_append, ih, List.length_cons, rgbOf, List.length_nil]; omega
  · clear hd hm
    induction data with
    | nil => intro i q h; simp at h
    | cons a l ih =>
      intro i q h
      cases i with
      | zero =>
        simp only [List.getElem?_cons_zero, Option.some.injEq] at h
        subst h
        simp [rgbOf, Spec.rgb, red, green, blue]
      | succ i =>
        simp only [List.getElem?_cons_succ] at h
        have := ih i q h
        rw [← this]
        rw [show 3 * (i + 1) = 3 * i + 1 + 1 + 1 by omega]
        simp [rgbOf]

/-- **C62, the ends of the scale.** White paper takes no ink (at most the smallest amount, from rounding), black takes all of it. -/
theorem C62_ends {lum : Luminosity} (hl : Spec.Rounds lum) :
    lum.gray 0 = 0 ∧ 254 ≤ (lum.gray 0xffffff).toNat ∧ lum.black 0xffffff = 0 ∧ 254 ≤ (lum.black 0).toNat := by
  have h0 : Spec.luma1000 0 = 0 := rfl
  have h1 : Spec.luma1000 0xffffff = 255000 := rfl
  have a := hl.gray 0; have b := hl.gray 0xffffff; have c := hl.black 0; have d := hl.black 0xffffff
  rw [h0] at a c; rw [h1] at b d
  refine ⟨?_, by omega, ?_, by omega⟩ <;> apply UInt8.toNat_inj.1 <;> simp <;> omega

example : (∃ p : Params, p.colorMode = .Black8 ∧ [0x102030, 0xffffff].length = p.widthPx * p.heightPx) ∧ Spec.Rounds codeLuminosity :=
  ⟨⟨{ colorMode := .Black8, widthPx := 2, heightPx := 1 }, rfl, rfl⟩, C62_code_rounds⟩

end Verif.Pdf
