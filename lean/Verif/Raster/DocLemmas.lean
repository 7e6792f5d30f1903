import Verif.Core.Lists
import Verif.Raster.UrfLemmas

/-! # Helper lemmas: whole documents -/

namespace Verif.Raster

open Spec

theorem readPwgPages_step (file s rest out : Bytes) (hd : PwgHdr) (hne : file ≠ [])
    (h1 : PwgHdr.decode file = .ok (hd, s))
    (h2 : rasterToBmp s hd.BytesPerLine hd.Height hd.NumColors false = .ok (out, rest)) :
    readPwgPages file = (do
      let more ← readPwgPages rest
      return ⟨hd.Width, hd.Height, hd.NumColors, hd.BitsPerColor, hd.ColorSpace == 3, out⟩ :: more) := by
  conv => lhs; unfold readPwgPages
  rw [if_neg hne]
  split <;> rename_i h3 <;> rw [h1] at h3 <;> cases h3
  split <;> rename_i h4 <;> rw [h2] at h4 <;> cases h4
  rfl

theorem readUrfPages_step (file s rest out : Bytes) (hd : UrfHdr) (hne : file ≠ [])
    (h1 : UrfHdr.decode file = .ok (hd, s))
    (h2 : rasterToBmp s (hd.Width * (hd.BitsPerPixel / 8) % 2 ^ 32) hd.Height (hd.BitsPerPixel / 8) true =
      .ok (out, rest)) :
    readUrfPages file = (do
      let more ← readUrfPages rest
      return ⟨hd.Width, hd.Height, hd.BitsPerPixel / 8, 8, false, out⟩ :: more) := by
  conv => lhs; unfold readUrfPages
  rw [if_neg hne]
  split <;> rename_i h3 <;> rw [h1] at h3 <;> cases h3
  split <;> rename_i h4 <;> rw [h2] at h4 <;> cases h4
  rfl

/-- What a PWG page shows up as. -/
def ShowsPwg (x : Params × Nat × Bytes) (o : PageOut) : Prop :=
  o.width = x.1.widthPx ∧ o.height = x.1.heightPx ∧ o.colors = colors x.1.colorMode ∧
  o.bits = bitsPerColor x.1.colorMode ∧ (o.black = true ↔ x.1.colorMode = .Black8 ∨ x.1.colorMode = .Black1) ∧
  Pixels x.1 x.2.1 x.2.2 o.bmp

/-- What a URF page shows up as. -/
def ShowsUrf (x : Params × Nat × Bytes) (o : PageOut) : Prop :=
  o.width = x.1.widthPx ∧ o.height = x.1.heightPx ∧ o.colors * 8 = bitsPerPixel x.1.colorMode ∧
  Pixels x.1 x.2.1 x.2.2 o.bmp

theorem readPwgPages_encodePages (pages : List (Params × Nat × Bytes))
    (h : ∀ x ∈ pages, x.1.format ≠ .URF ∧ Spec.Fits x.1 ∧ bitsPerColor x.1.colorMode ≤ 8 ∧
      x.2.2.length = x.1.heightPx * rowBytes x.1.colorMode x.1.widthPx) :
    ∃ enc outs, encodePages pages = .ok enc ∧ readPwgPages enc = .ok outs ∧ All2 ShowsPwg pages outs := by
  induction pages with
  | nil => exact ⟨[], [], rfl, by unfold readPwgPages; rfl, .nil⟩
  | cons x xs ih =>
    obtain ⟨enc, outs, he, ho, ha⟩ := ih (fun y hy => h y (by simp [hy]))
    obtain ⟨p, page, bmp⟩ := x
    obtain ⟨hfm, hfit, hbits, hlen⟩ := h (p, page, bmp) (by simp)
    simp only at hfm hfit hbits hlen
    obtain ⟨hdr, body, out, h1, h2, -, h3, h4, h5, h6⟩ := bmpToPwg_spec p page bmp hfit (fun h => absurd h hfm)
      (by omega)
    obtain ⟨hd, h7, h8, h9, -⟩ := h2 hfm
    have hdf := PwgHdr.fits_of p _ hfit hd h7
    obtain ⟨hd', h10, h11⟩ := makePwgHdr_ok p (isBackside p page)
    rw [h7] at h10
    cases h10
    have hu : unit p.colorMode = hd.NumColors := by
      rw [h11]; revert hbits; simp only [unit, bitsPerPixel, bitsPerColor, colors]
      cases p.colorMode <;> simp
    refine ⟨hdr ++ body ++ enc, ⟨hd.Width, hd.Height, hd.NumColors, hd.BitsPerColor, hd.ColorSpace == 3, out⟩ :: outs,
      ?_, ?_, .cons ?_ ha⟩
    · simp only [encodePages, h1, he, Outcome.bind_ok, Outcome.pure_eq]
    · rw [readPwgPages_step (hdr ++ body ++ enc) (body ++ enc) enc out hd ?_ ?_ ?_, ho]
      · rfl
      · intro hc
        have := congrArg List.length hc
        simp [h9] at this
      · rw [h8, List.append_assoc, PwgHdr.decode_encode hd hdf]
      · have := h3 false enc
        rw [← hu, h11]
        exact this
    · refine ⟨by rw [h11], by rw [h11], by rw [h11], by rw [h11], ?_, h4, ?_, h6⟩
      · rw [h11]; simp only [colorSpace]; cases p.colorMode <;> simp
      · intro hn
        rw [h5 hn, ← hlen, List.take_length]

theorem readUrfPages_encodePages (pages : List (Params × Nat × Bytes))
    (h : ∀ x ∈ pages, x.1.format = .URF ∧ UrfAble x.1 ∧ Spec.Fits x.1 ∧
      x.2.2.length = x.1.heightPx * rowBytes x.1.colorMode x.1.widthPx) :
    ∃ enc outs, encodePages pages = .ok enc ∧ readUrfPages enc = .ok outs ∧ All2 ShowsUrf pages outs := by
  induction pages with
  | nil => exact ⟨[], [], rfl, by unfold readUrfPages; rfl, .nil⟩
  | cons x xs ih =>
    obtain ⟨enc, outs, he, ho, ha⟩ := ih (fun y hy => h y (by simp [hy]))
    obtain ⟨p, page, bmp⟩ := x
    obtain ⟨hfm, hable, hfit, hlen⟩ := h (p, page, bmp) (by simp)
    simp only at hfm hfit hable hlen
    obtain ⟨hdr, body, out, h1, -, h2, h3, h4, h5, h6⟩ := bmpToPwg_spec p page bmp hfit (fun _ => hable)
      (by omega)
    obtain ⟨hd, h7, h8, h9, -⟩ := h2 hfm
    have hdf := UrfHdr.fits_of p hfit hable hd h7
    obtain ⟨hd', cs, mt, h10, hcs, -, h11⟩ := makeUrfHdr_ok p hable
    rw [h7] at h10
    cases h10
    have hu : unit p.colorMode = hd.BitsPerPixel / 8 := by
      rw [h11]; revert hcs; simp only [unit, bitsPerPixel, urfColorNumber]
      cases p.colorMode <;> simp
    have hu8 : hd.BitsPerPixel / 8 * 8 = bitsPerPixel p.colorMode := by
      rw [h11]; revert hcs; simp only [bitsPerPixel, urfColorNumber]
      cases p.colorMode <;> simp
    have hrow : hd.Width * (hd.BitsPerPixel / 8) % 2 ^ 32 = rowBytes p.colorMode p.widthPx := by
      have hr := hfit.row
      have : hd.Width * (hd.BitsPerPixel / 8) = rowBytes p.colorMode p.widthPx := by
        have hw : hd.Width = p.widthPx := by rw [h11]
        rw [hw]; unfold rowBytes; rw [← hu8, ← Nat.mul_assoc]; omega
      rw [this]
      exact Nat.mod_eq_of_lt hr
    refine ⟨hdr ++ body ++ enc, ⟨hd.Width, hd.Height, hd.BitsPerPixel / 8, 8, false, out⟩ :: outs,
      ?_, ?_, .cons ?_ ha⟩
    · simp only [encodePages, h1, he, Outcome.bind_ok, Outcome.pure_eq]
    · rw [readUrfPages_step (hdr ++ body ++ enc) (body ++ enc) enc out hd ?_ ?_ ?_, ho]
      · rfl
      · intro hc
        have := congrArg List.length hc
        simp [h9] at this
      · rw [h8, List.append_assoc, UrfHdr.decode_encode hd hdf]
      · have := h3 true enc
        rw [hrow, ← hu]
        have hh : hd.Height = p.heightPx := by rw [h11]
        rw [hh]; exact this
    · refine ⟨by rw [h11], by rw [h11], hu8, h4, ?_, h6⟩
      intro hn
      rw [h5 hn, ← hlen, List.take_length]

end Verif.Raster
