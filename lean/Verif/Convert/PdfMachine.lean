import Verif.Convert.Machine
import Verif.Convert.PdfFails

/-!
# `pdf_to_printable` in the arithmetic of the machine (C108)

`pdfToPrintable` computes sizes in natural numbers, and takes every page to be there. Here it is modelled with the numbers that the code has: sizes are doubles
put into a `size_t` (undefined if they do not fit), cairo gets them as `int`, which leaves 32 bits of them, the resolutions are divided by each other as
integers, the sizes in points go into a `uint32_t`, and the encoder is the one with its pointers (`Ptr.bmpToPwg`). Of poppler and cairo there is more: a page may
be damaged, and images have a largest size. C108 shows that there is no difference as long as sizes are below 2^32, and what happens outside.

`width * height` and the number of bytes of a page are not wrapped at 2^64 (such sizes are only met when the image is too small for them anyway).
-/

set_option linter.unusedVariables false

namespace Verif.Convert

open Tools Tools.Spec Client Client.Spec Raster Raster.Spec Convert.Spec Pdf

/-- What poppler and cairo can not do -/
structure Limits where
  /-- the largest width and height of an image (32767 in cairo); for other sizes `cairo_image_surface_create` gives a surface in an error state, of which
  `cairo_status` tells when it is asked (pdf2printable.cpp 188) -/
  limit : Nat
  /-- whether `poppler_document_get_page` gives this page (counted from 1); it gives null for a page that is damaged -/
  loads : Nat → Bool

/-- A size in pixels before it is put into a `size_t`, printparameters.cpp 16-44 -/
def pixelDouble (u : PaperUnits) (x : Rat) (res : Nat) : Rat :=
  match u with
  | .Pixels => x
  | .Millimeters => dbl (dbl (x * res) / mmPerIn)
  | .Inches => dbl (x * res)

/-- `getPaperSizeWInPixels`, `getPaperSizeHInPixels`, printparameters.cpp 16-44 -/
def pixelsOf (u : PaperUnits) (x : Rat) (res : Nat) : Outcome Nat := toSize (pixelDouble u x res)

/-- A size in points put into a `size_t` (pdf2printable.cpp 335-336). Without a resolution pixels are infinitely many points, or not a number. -/
def pointsOf (u : PaperUnits) (x : Rat) (res : Nat) : Outcome Nat := if u = .Pixels ∧ res = 0 then .ub else toSize (sizeInPoints u x res)

/-- A size in points in the header of a PWG page, a `uint32_t` (ppm2pwg.cpp 220-221); there is none in that of URF -/
def headerPoints (f : Format) (u : PaperUnits) (x : Rat) (res : Nat) : Outcome Nat :=
  if f = .URF then .ok 0
  else if u = .Pixels ∧ res = 0 then .ub
  else if (roundAway (sizeInPoints u x res)).toNat < 4294967296 then .ok (roundAway (sizeInPoints u x res)).toNat else .ub

/-- A `size_t` as an `int` -/
def intOf (n : Nat) : Int := if n % 4294967296 < 2147483648 then (n % 4294967296 : Nat) else (n % 4294967296 : Nat) - 4294967296

/-- `cairo_image_surface_create`, pdf2printable.cpp 105-107: the size of the image, if there is one -/
def imageSize (limit w h : Nat) : Option (Nat × Nat) :=
  if 0 ≤ intOf w ∧ intOf w ≤ limit ∧ 0 ≤ intOf h ∧ intOf h ≤ limit then some ((intOf w).toNat, (intOf h).toNat) else none

/-- pdf2printable.cpp 103-143: the surface. None: it is in an error state. `cairo_surface_set_fallback_resolution` (143) makes it so for a resolution of 0.
Sizes of surfaces for PDF and PostScript are not of interest. -/
def surfaceFor (lim : Limits) (p : Params) : Option (Nat × Nat) :=
  if p.hwResW = 0 ∨ p.hwResH = 0 then none else if isRaster p then imageSize lim.limit p.widthPx p.heightPx else some (0, 0)

/-- `fixup_scale`, pdf2printable.cpp 313-356. In 347-353 the resolutions are divided as integers. -/
def machineScale (raster : Bool) (resW resH : Nat) (paper : Paper) (wIn hIn : Rat) : Outcome Scale := do
  let _ ← if raster then pixelsOf paper.units paper.h (min resW resH) else pointsOf paper.units paper.h (min resW resH)
  let _ ← if raster then pixelsOf paper.units paper.w (min resW resH) else pointsOf paper.units paper.w (min resW resH)
  if raster = true ∧ resW ≠ resH ∧ min resW resH = 0 then .ub else .ok (fixupScale raster resW resH paper wIn hIn)

/-- pdf2printable.cpp 164-185. For a page that is null `poppler_page_get_size` sets nothing, and `fixup_scale` reads the two variables without a value. -/
def machineDrawn (lim : Limits) (lib : Library) (paper : Paper) (p : Params) (pageNo : Nat) : Outcome Drawn :=
  if pageNo = 0 then .ok none
  else if lim.loads pageNo = false then .ub
  else do
    let sc ← machineScale (isRaster p) p.hwResW p.hwResH paper (lib.size pageNo).1 (lib.size pageNo).2
    return some (pageNo, sc)

/-- pdf2printable.cpp 195-201: the image has the size of the surface, `copy_raster_buffer` and `bmp_to_pwg` go by the sizes of `params`. -/
def machinePdfPage (junk : Nat → Bytes) (lum : Luminosity) (lib : Library) (paper : Paper) (p : Params) (size : Nat × Nat) (outPageNo : Nat) (drawn : List Drawn)
    (d : Drawn) : Outcome Bytes :=
  if isRaster p then do
    let bmp ← copyRasterBuffer lum p (image lib { p with widthPx := size.1, heightPx := size.2 } d)
    let ptW ← headerPoints p.format paper.units paper.w p.hwResW
    let ptH ← headerPoints p.format paper.units paper.h p.hwResH
    let row ← p.widthBytes
    Ptr.bmpToPwg { p with widthPt := ptW, heightPt := ptH } outPageNo bmp (junk (row % Ptr.W))
  else .ok (lib.shown drawn)

/-- A step of the loop that may end the run -/
def runAfter {α : Type} (events : List Event) (o : Outcome α) (f : α → Run) : Run :=
  match o with
  | .ok a => f a
  | .throws e => { events := events, result := .throws e }
  | .ub => { events := events, result := .ub }
  | .hang => { events := events, result := .hang }

/-- The loop, pdf2printable.cpp 145-219 -/
def machinePages (junk : Nat → Bytes) (lum : Luminosity) (lim : Limits) (lib : Library) (taken : List Bytes → Bool) (paper : Paper) (p : Params)
    (surface : Option (Nat × Nat)) (total : Nat) : List Nat → Nat → List Drawn → Bytes → List Event → Run
  | [], _, drawn, outBts, events =>
    let outBts := outBts ++ (if isRaster p then [] else lib.finished drawn)
    if outBts.length ≠ 0 then
      if taken (blocks events ++ [outBts]) then { events := events ++ [.write outBts true], result := .ok none }
      else { events := events ++ [.write outBts false], result := .ok (some .write) }
    else { events := events, result := .ok none }
  | pageNo :: rest, outPageNo, drawn, outBts, events =>
    runAfter events (machineDrawn lim lib paper p pageNo) fun d =>
      match surface with
      | none => { events := events, result := .ok (some .cairo) }
      | some size =>
        if lib.failed (drawn ++ [d]) then { events := events, result := .ok (some .cairo) }
        else
          runAfter events (machinePdfPage junk lum lib paper p size (outPageNo + 1) (drawn ++ [d]) d) fun b =>
            if taken (blocks events ++ [outBts ++ b]) then
              machinePages junk lum lim lib taken paper p surface total rest (outPageNo + 1) (drawn ++ [d]) []
                (events ++ [.write (outBts ++ b) true, .progress (outPageNo + 1) total])
            else { events := events ++ [.write (outBts ++ b) false], result := .ok (some .write) }

/-- pdf2printable.cpp 103-219 for PWG and URF -/
def machineRaster (junk : Nat → Bytes) (lum : Luminosity) (lim : Limits) (lib : Library) (taken : List Bytes → Bool) (paper : Paper) (p : Params) (seq : List Nat)
    (hdr : Bytes) : Run :=
  runAfter [] (pixelsOf paper.units paper.w p.hwResW) fun w =>
    runAfter [] (pixelsOf paper.units paper.h p.hwResH) fun h =>
      let p := { p with widthPx := w, heightPx := h }
      machinePages junk lum lim lib taken paper p (surfaceFor lim p) seq.length seq 0 [] hdr []

/-- `pdf_to_printable`, pdf2printable.cpp 55-220. `junk` are the bytes of a new buffer. -/
def pdfMachine (junk : Nat → Bytes) (lum : Luminosity) (lim : Limits) (lib : Library) (taken : List Bytes → Bool) (paper : Paper) (p : Params) : Run :=
  if p.format = .URF ∧ p.hwResW ≠ p.hwResH then { events := [], result := .ok (some .asymmetric) }
  else
    match lib.pages with
    | none => { events := [], result := .ok (some .open) }
    | some pages =>
      runAfter [] (p.pageSequence pages) fun seq =>
        match p.format with
        | .URF => machineRaster junk lum lim lib taken paper p seq (urfFileHdr seq.length)
        | .PWG => machineRaster junk lum lim lib taken paper p seq pwgFileHdr
        | .PDF | .Postscript => machinePages junk lum lim lib taken paper p (surfaceFor lim p) seq.length seq 0 [] [] []
        | .Invalid => { events := [], result := .ok (some .format) }

/-- `main`, pdf2printable_main.cpp 21-215, as `pdfMain` -/
def pdfMachineMain (junk : Nat → Bytes) (lum : Luminosity) (lim : Limits) (lib : Bytes → Bool → Library) (d : Disk) (args : List Bytes) : Done :=
  let r := getArgs pdfOpts pdfPos args
  if (r.vals 0).isSome then { out := .ok 0 }
  else if r.success then
    let outFile := r.positional.getD 1 []
    match pdfParams r.vals outFile with
    | .ok none => { out := .ok 1 }
    | .ok (some (paper, p)) =>
      let run := pdfMachine junk lum lim (lib (r.positional.getD 0 []) (r.vals 14).isSome) (fun _ => true) paper p
      { out := codeFor run.result, file := some (outFile, d.kept outFile (blocks run.events).flatten) }
    | .throws e => { out := .throws e }
    | .ub => { out := .ub }
    | .hang => { out := .hang }
  else { out := .ok 1 }

namespace Spec

/-- The sizes in the parameters are those of the paper. -/
structure Sized (paper : Paper) (p : Params) : Prop where
  width : p.widthPx = sizeInPixels paper.units paper.w p.hwResW
  height : p.heightPx = sizeInPixels paper.units paper.h p.hwResH
  widthPt : p.widthPt = (roundAway (sizeInPoints paper.units paper.w p.hwResW)).toNat
  heightPt : p.heightPt = (roundAway (sizeInPoints paper.units paper.h p.hwResH)).toNat

/-- There is no image of this size, or no scale for it. -/
def Oversized (limit : Nat) (p : Params) : Prop :=
  p.hwResW = 0 ∨ p.hwResH = 0 ∨ ((p.format = .PWG ∨ p.format = .URF) ∧ (limit < p.widthPx ∨ limit < p.heightPx))

/-- The numbers that are met have a meaning: pixels are counted by 32 bits, points by 64; and PWG does not have just one resolution of 0. -/
structure Meant (paper : Paper) (p : Params) : Prop where
  pixels : p.format = .PWG ∨ p.format = .URF → p.widthPx < 2 ^ 32 ∧ p.heightPx < 2 ^ 32 ∧ (p.hwResW = 0 ↔ p.hwResH = 0)
  points : p.format = .PDF ∨ p.format = .Postscript → (paper.units = .Pixels → 0 < p.hwResW ∧ 0 < p.hwResH) ∧
    sizeInPoints paper.units paper.w (min p.hwResW p.hwResH) < 2 ^ 64 ∧ sizeInPoints paper.units paper.h (min p.hwResW p.hwResH) < 2 ^ 64

end Spec

open Verif.Convert.Spec

instance (limit : Nat) (p : Params) : Decidable (Oversized limit p) := by unfold Oversized; infer_instance

/-- The library in which cairo fails with what is too large -/
def limited (limit : Nat) (p : Params) (lib : Library) : Library := { lib with failed := fun d => decide (Oversized limit p) || lib.failed d }

/-! ## Sizes -/

theorem floor_lt_of {q : Rat} {n : Nat} (h : q.floor.toNat < n) : q < n := by
  have h1 : q < (q.floor : Rat) + 1 := Int.lt_floor_add_one q
  have h2 : q.floor + 1 ≤ (n : Int) := by omega
  have h3 : ((q.floor : Int) : Rat) + 1 ≤ (n : Rat) := by exact_mod_cast h2
  linarith

theorem sizeInPixels_eq (u : PaperUnits) (x : Rat) (res : Nat) : sizeInPixels u x res = (pixelDouble u x res).floor.toNat := by
  cases u <;> rfl

theorem pixelsOf_of_lt {u : PaperUnits} {x : Rat} {res : Nat} (h : pixelDouble u x res < 2 ^ 64) : pixelsOf u x res = .ok (sizeInPixels u x res) := by
  unfold pixelsOf toSize
  rw [if_pos (by norm_num at h ⊢; exact h), sizeInPixels_eq]

theorem pixelDouble_lt {u : PaperUnits} {x : Rat} {res : Nat} (h : sizeInPixels u x res < 2 ^ 32) : pixelDouble u x res < 2 ^ 64 := by
  rw [sizeInPixels_eq] at h
  have := floor_lt_of h
  norm_num at this ⊢
  linarith

theorem mmPerIn_bounds : 25 ≤ mmPerIn ∧ mmPerIn ≤ 26 := by
  unfold mmPerIn
  exact ⟨le_dbl (n := 25) (by norm_num) (by norm_num), dbl_le (n := 26) (by norm_num) (by norm_num) (by norm_num)⟩

theorem pixelDouble_mono {u : PaperUnits} {x : Rat} {a b : Nat} (h : a ≤ b) (hb : pixelDouble u x b < 2 ^ 64) : pixelDouble u x a < 2 ^ 64 := by
  have hab : (a : Rat) ≤ b := by exact_mod_cast h
  have ha : (0 : Rat) ≤ a := by exact_mod_cast Nat.zero_le a
  have hm := mmPerIn_bounds
  by_cases hx : 0 ≤ x
  · refine lt_of_le_of_lt ?_ hb
    have h1 : dbl (x * a) ≤ dbl (x * b) := dbl_mono' (mul_le_mul_of_nonneg_left hab hx)
    cases u with
    | Pixels => exact le_refl _
    | Millimeters => exact dbl_mono' (div_le_div_of_nonneg_right h1 (by linarith))
    | Inches => exact h1
  · have hx : x ≤ 0 := le_of_not_ge hx
    have h1 : dbl (x * a) ≤ 0 := by rw [← dbl_zero]; exact dbl_mono' (mul_nonpos_of_nonpos_of_nonneg hx ha)
    have h0 : pixelDouble u x a ≤ 0 := by
      cases u with
      | Pixels => exact hx
      | Millimeters => show dbl _ ≤ 0; rw [← dbl_zero]; exact dbl_mono' (div_nonpos_of_nonpos_of_nonneg h1 (by linarith))
      | Inches => exact h1
    exact lt_of_le_of_lt h0 (by norm_num)

theorem dbl_le' {n : Nat} {q : Rat} (hn : n < 2 ^ 53) (h : q ≤ n) : dbl q ≤ n := by rw [← dbl_nat hn]; exact dbl_mono' h

theorem roundAway_le {q : Rat} {n : Nat} (h : q ≤ n) : roundAway q ≤ n := by
  have h1 := (abs_le.mp (roundAway_near q)).2
  have h2 : ((roundAway q : Int) : Rat) < (n : Rat) + 1 := by linarith
  have h3 : roundAway q < (n : Int) + 1 := by exact_mod_cast h2
  omega

theorem roundHundredth_le {q : Rat} {n : Nat} (hn : n < 2 ^ 40) (h : q ≤ n) : roundHundredth q ≤ n := by
  unfold roundHundredth
  apply dbl_le' (by omega)
  have h1 : dbl (q * 100) ≤ ((n * 100 : Nat) : Rat) := dbl_le' (by omega) (by push_cast; linarith)
  have h2 := roundAway_le h1
  have h3 : ((roundAway (dbl (q * 100)) : Int) : Rat) ≤ ((n * 100 : Nat) : Rat) := by exact_mod_cast h2
  push_cast at h3
  rw [div_le_iff₀ (by norm_num)]
  linarith

/-- A page that has an image has a size in points that fits the header. -/
theorem points_lt {u : PaperUnits} {x : Rat} {res : Nat} (hr : 0 < res) (h : sizeInPixels u x res ≤ 32767) : (roundAway (sizeInPoints u x res)).toNat < 4294967296 := by
  have key : sizeInPoints u x res ≤ ((2880000 : Nat) : Rat) := by
    have hres : (1 : Rat) ≤ res := by exact_mod_cast hr
    have hm := mmPerIn_bounds
    rw [sizeInPixels_eq] at h
    have hlt : pixelDouble u x res < ((32768 : Nat) : Rat) := floor_lt_of (by omega)
    cases u with
    | Pixels =>
      have hx : x < 32768 := by simpa [pixelDouble] using hlt
      have h1 : x / res ≤ 32768 := by
        rw [div_le_iff₀ (by linarith)]
        nlinarith
      have h2 : dbl (x / res) ≤ ((32768 : Nat) : Rat) := dbl_le' (by norm_num) (by exact_mod_cast h1)
      have h3 : dbl (dbl (x / res) * 72) ≤ ((2880000 : Nat) : Rat) := dbl_le' (by norm_num) (by push_cast at h2 ⊢; linarith)
      exact roundHundredth_le (by norm_num) h3
    | Millimeters =>
      have hx : x < 1000000 := by
        by_contra hc
        have hc : 1000000 ≤ x := le_of_not_gt hc
        have h1 : ((1000000 : Nat) : Rat) ≤ dbl (x * res) := le_dbl (by norm_num) (by push_cast; nlinarith)
        have h2 : ((38461 : Nat) : Rat) ≤ dbl (x * res) / mmPerIn := by
          rw [le_div_iff₀ (by linarith)]
          push_cast at h1 ⊢
          nlinarith
        have h3 : ((38461 : Nat) : Rat) ≤ dbl (dbl (x * res) / mmPerIn) := le_dbl (by norm_num) h2
        have h4 : dbl (dbl (x * res) / mmPerIn) < ((32768 : Nat) : Rat) := hlt
        push_cast at h3 h4
        linarith
      have h1 : x / mmPerIn ≤ ((40000 : Nat) : Rat) := by
        rw [div_le_iff₀ (by linarith)]
        push_cast
        nlinarith
      have h2 : dbl (x / mmPerIn) ≤ ((40000 : Nat) : Rat) := dbl_le' (by norm_num) h1
      have h3 : dbl (dbl (x / mmPerIn) * 72) ≤ ((2880000 : Nat) : Rat) := dbl_le' (by norm_num) (by push_cast at h2 ⊢; linarith)
      exact roundHundredth_le (by norm_num) h3
    | Inches =>
      have hx : x < 32768 := by
        by_contra hc
        have hc : 32768 ≤ x := le_of_not_gt hc
        have h1 : ((32768 : Nat) : Rat) ≤ dbl (x * res) := le_dbl (by norm_num) (by push_cast; nlinarith)
        have h2 : dbl (x * res) < ((32768 : Nat) : Rat) := hlt
        linarith
      exact dbl_le' (by norm_num) (by push_cast; linarith)
  have := roundAway_le key
  omega

/-! ## The image -/

theorem intOf_small {n : Nat} (h : n < 2147483648) : intOf n = n := by
  unfold intOf
  rw [Nat.mod_eq_of_lt (by omega), if_pos h]

theorem intOf_half {n : Nat} (h : 2147483648 ≤ n) (h2 : n < 4294967296) : intOf n < 0 := by
  unfold intOf
  rw [Nat.mod_eq_of_lt h2, if_neg (by omega)]
  omega

theorem imageSize_eq {limit w h : Nat} (hl : limit ≤ 32767) (hw : w < 4294967296) (hh : h < 4294967296) :
    imageSize limit w h = if w ≤ limit ∧ h ≤ limit then some (w, h) else none := by
  unfold imageSize
  have one : ∀ n, n < 4294967296 → ((0 ≤ intOf n ∧ intOf n ≤ limit) ↔ n ≤ limit) ∧ (n ≤ limit → (intOf n).toNat = n) := by
    intro n hn
    by_cases hs : n < 2147483648
    · rw [intOf_small hs]; omega
    · have := intOf_half (by omega) hn
      omega
  obtain ⟨a1, a2⟩ := one w hw
  obtain ⟨b1, b2⟩ := one h hh
  by_cases hc : w ≤ limit ∧ h ≤ limit
  · rw [if_pos hc, if_pos ⟨(a1.mpr hc.1).1, (a1.mpr hc.1).2, (b1.mpr hc.2).1, (b1.mpr hc.2).2⟩, a2 hc.1, b2 hc.2]
  · rw [if_neg hc, if_neg (fun ⟨x, y, z, t⟩ => hc ⟨a1.mp ⟨x, y⟩, b1.mp ⟨z, t⟩⟩)]

theorem isRaster_iff (p : Params) : isRaster p = true ↔ (p.format = .PWG ∨ p.format = .URF) := by simp [isRaster]

/-! ## No difference -/

theorem machineScale_eq {paper : Paper} {p : Params} (hs : Sized paper p) (hm : Meant paper p) (hf : p.format ≠ .Invalid) (a b : Rat) :
    machineScale (isRaster p) p.hwResW p.hwResH paper a b = .ok (fixupScale (isRaster p) p.hwResW p.hwResH paper a b) := by
  unfold machineScale
  by_cases hr : isRaster p = true
  · obtain ⟨h1, h2, h3⟩ := hm.pixels ((isRaster_iff p).mp hr)
    rw [hs.width] at h1
    rw [hs.height] at h2
    rw [hr, if_pos rfl, if_pos rfl, pixelsOf_of_lt (pixelDouble_mono (Nat.min_le_right _ _) (pixelDouble_lt h2)),
      pixelsOf_of_lt (pixelDouble_mono (Nat.min_le_left _ _) (pixelDouble_lt h1))]
    simp only [Outcome.bind_ok]
    rw [if_neg]
    rintro ⟨-, g1, g2⟩
    have : p.hwResW = 0 ∨ p.hwResH = 0 := by omega
    omega
  · have hr' : isRaster p = false := by simpa using hr
    have hf' : p.format = .PDF ∨ p.format = .Postscript := by
      have := fun h => hr ((isRaster_iff p).mpr h)
      cases h : p.format <;> simp_all
    obtain ⟨h1, h2, h3⟩ := hm.points hf'
    have pt : ∀ x, sizeInPoints paper.units x (min p.hwResW p.hwResH) < 2 ^ 64 → ∃ n, pointsOf paper.units x (min p.hwResW p.hwResH) = .ok n := by
      intro x hx
      unfold pointsOf toSize
      rw [if_neg (fun h => by have := h1 h.1; omega), if_pos (by norm_num at hx ⊢; exact hx)]
      exact ⟨_, rfl⟩
    obtain ⟨n, hn⟩ := pt _ h2
    obtain ⟨m, hm⟩ := pt _ h3
    rw [hr']
    simp only [Bool.false_eq_true, if_false, hn, hm, Outcome.bind_ok, false_and]

theorem machineDrawn_eq {lim : Limits} {lib : Library} {paper : Paper} {p : Params} (hs : Sized paper p) (hm : Meant paper p) (hf : p.format ≠ .Invalid) {n : Nat}
    (hl : n ≠ 0 → lim.loads n = true) : machineDrawn lim lib paper p n = .ok (drawnFor lib paper p n) := by
  unfold machineDrawn drawnFor
  by_cases hn : n = 0
  · rw [if_pos hn, if_neg (by simp [hn])]
  · rw [if_neg hn, if_neg (by rw [hl hn]; simp), if_pos hn, machineScale_eq hs hm hf]
    rfl

theorem rowBytes_le (m : ColorMode) (w : Nat) : rowBytes m w ≤ 8 * w + 8 := by
  cases m <;> simp [rowBytes, bitsPerPixel] <;> omega

theorem machinePdfPage_eq {junk : Nat → Bytes} (hj : ∀ n, (junk n).length = n) {lum : Luminosity} {lib : Library}
    (hdraw : ∀ n sc img, (lib.draw n sc img).length = img.length) {paper : Paper} {p : Params} (hs : Sized paper p) (hw : p.widthPx ≤ 32767) (hh : p.heightPx ≤ 32767)
    (h1 : 0 < p.hwResW) (h2 : 0 < p.hwResH) (k : Nat) (drawn : List Drawn) (d : Drawn) :
    machinePdfPage junk lum lib paper p (p.widthPx, p.heightPx) k drawn d = pageBytes lum lib p k drawn d := by
  unfold machinePdfPage pageBytes
  by_cases hr : isRaster p = true
  · rw [if_pos hr, if_pos hr]
    have hp : ({ p with widthPx := p.widthPx, heightPx := p.heightPx } : Params) = p := rfl
    simp only []
    have himg : (image lib p d).length = p.widthPx * p.heightPx := by
      unfold image
      cases d with
      | none => simp
      | some x => simp [hdraw]
    cases hb : copyRasterBuffer lum p (image lib p d) with
    | ok bmp =>
      have hlen := (copy_length himg hb).1
      simp only [Outcome.bind_ok]
      have e1 := points_lt (u := paper.units) h1 (by rw [← hs.width]; exact hw)
      have e2 := points_lt (u := paper.units) h2 (by rw [← hs.height]; exact hh)
      have hrow := rowBytes_le p.colorMode p.widthPx
      have key : ∀ q : Params, q.colorMode = p.colorMode → q.widthPx = p.widthPx → q.heightPx = p.heightPx →
          Ptr.bmpToPwg q k bmp (junk (rowBytes p.colorMode p.widthPx)) = bmpToPwg q k bmp := by
        intro q a1 a2 a3
        have hsz : p.heightPx * rowBytes p.colorMode p.widthPx ≤ 32767 * 262144 := Nat.mul_le_mul hh (by omega)
        exact Ptr.bmpToPwg_refines q k bmp _ (by rw [a1, a2, a3]; omega) (by omega) (by rw [a1, a2]; omega) (by rw [a1, a2]; exact hj _)
      rw [widthBytes_eq]
      by_cases hu : p.format = .URF
      · unfold headerPoints
        simp only [if_pos hu, Outcome.bind_ok]
        rw [Nat.mod_eq_of_lt (show rowBytes p.colorMode p.widthPx < Ptr.W by unfold Ptr.W; omega), urf_points p _ _ _ _ _ hu, key p rfl rfl rfl]
      · have hpt : ∀ x res, 0 < res → (roundAway (sizeInPoints paper.units x res)).toNat < 4294967296 →
            headerPoints p.format paper.units x res = .ok (roundAway (sizeInPoints paper.units x res)).toNat := by
          intro x res a b
          unfold headerPoints
          rw [if_neg hu, if_neg (by omega), if_pos b]
        rw [hpt _ _ h1 e1, hpt _ _ h2 e2, ← hs.widthPt, ← hs.heightPt]
        simp only [Outcome.bind_ok]
        rw [Nat.mod_eq_of_lt (show rowBytes p.colorMode p.widthPx < Ptr.W by unfold Ptr.W; omega), key _ rfl rfl rfl]
    | throws e => rfl
    | ub => rfl
    | hang => rfl
  · rw [if_neg hr, if_neg hr]

theorem surfaceFor_eq {lim : Limits} {p : Params} (hl : lim.limit ≤ 32767) (hm : p.format = .PWG ∨ p.format = .URF → p.widthPx < 2 ^ 32 ∧ p.heightPx < 2 ^ 32) :
    surfaceFor lim p = if Oversized lim.limit p then none else if isRaster p then some (p.widthPx, p.heightPx) else some (0, 0) := by
  unfold surfaceFor
  by_cases h0 : p.hwResW = 0 ∨ p.hwResH = 0
  · rw [if_pos h0, if_pos]
    rcases h0 with h | h
    · exact .inl h
    · exact .inr (.inl h)
  rw [if_neg h0]
  by_cases hr : isRaster p = true
  · obtain ⟨h1, h2⟩ := hm ((isRaster_iff p).mp hr)
    rw [if_pos hr, imageSize_eq hl (by omega) (by omega)]
    by_cases hc : p.widthPx ≤ lim.limit ∧ p.heightPx ≤ lim.limit
    · rw [if_pos hc, if_neg, if_pos hr]
      rintro (h | h | ⟨_, h⟩)
      · exact h0 (.inl h)
      · exact h0 (.inr h)
      · omega
    · rw [if_neg hc, if_pos]
      exact .inr (.inr ⟨(isRaster_iff p).mp hr, by omega⟩)
  · rw [if_neg hr, if_neg, if_neg hr]
    rintro (h | h | ⟨h, _⟩)
    · exact h0 (.inl h)
    · exact h0 (.inr h)
    · exact hr ((isRaster_iff p).mpr h)

theorem machinePages_eq {junk : Nat → Bytes} (hj : ∀ n, (junk n).length = n) {lum : Luminosity} {lim : Limits} (hl : lim.limit ≤ 32767) {lib : Library}
    (hdraw : ∀ n sc img, (lib.draw n sc img).length = img.length) {taken : List Bytes → Bool} {paper : Paper} {p : Params} (hs : Sized paper p) (hm : Meant paper p)
    (hf : p.format ≠ .Invalid) {total : Nat} (seq : List Nat) (hload : ∀ n ∈ seq, n ≠ 0 → lim.loads n = true) (k : Nat) (drawn : List Drawn) (out : Bytes)
    (ev : List Event) :
    machinePages junk lum lim lib taken paper p (surfaceFor lim p) total seq k drawn out ev =
      pagesLoop lum (limited lim.limit p lib) taken paper p total seq k drawn out ev := by
  rw [surfaceFor_eq hl (fun h => ⟨(hm.pixels h).1, (hm.pixels h).2.1⟩)]
  induction seq generalizing k drawn out ev with
  | nil => simp only [machinePages, pagesLoop]; rfl
  | cons n seq ih =>
    have ih := ih (fun m h => hload m (List.mem_cons_of_mem _ h))
    rw [machinePages, pagesLoop, machineDrawn_eq hs hm hf (hload n List.mem_cons_self)]
    have hd : drawnFor (limited lim.limit p lib) paper p n = drawnFor lib paper p n := rfl
    have hb : ∀ k dr d, pageBytes lum (limited lim.limit p lib) p k dr d = pageBytes lum lib p k dr d := fun _ _ _ => rfl
    simp only [hd, hb, runAfter]
    generalize drawnFor lib paper p n = d
    by_cases ho : Oversized lim.limit p
    · have hfail : (limited lim.limit p lib).failed (drawn ++ [d]) = true := by simp [limited, ho]
      rw [if_pos ho, hfail]
      rfl
    · have hfail : (limited lim.limit p lib).failed (drawn ++ [d]) = lib.failed (drawn ++ [d]) := by simp [limited, ho]
      rw [if_neg ho, hfail] at *
      have page : ∀ size, (if isRaster p = true then some (p.widthPx, p.heightPx) else some (0, 0)) = some size →
          machinePdfPage junk lum lib paper p size (k + 1) (drawn ++ [d]) d = pageBytes lum lib p (k + 1) (drawn ++ [d]) d := by
        intro size hsz
        by_cases hr : isRaster p = true
        · rw [if_pos hr] at hsz
          cases hsz
          have hn : ¬ (lim.limit < p.widthPx ∨ lim.limit < p.heightPx) := fun h => ho (.inr (.inr ⟨(isRaster_iff p).mp hr, h⟩))
          exact machinePdfPage_eq hj hdraw hs (by omega) (by omega) (Nat.pos_of_ne_zero fun h => ho (.inl h)) (Nat.pos_of_ne_zero fun h => ho (.inr (.inl h))) _ _ _
        · unfold machinePdfPage pageBytes
          rw [if_neg hr, if_neg hr]
      have hsome : ∃ size, (if isRaster p = true then some (p.widthPx, p.heightPx) else some (0, 0)) = some size := by
        by_cases hr : isRaster p = true
        · rw [if_pos hr]; exact ⟨_, rfl⟩
        · rw [if_neg hr]; exact ⟨_, rfl⟩
      obtain ⟨size, hsize⟩ := hsome
      rw [hsize] at page ih ⊢
      simp only [page size rfl]
      split
      · rfl
      · cases pageBytes lum lib p (k + 1) (drawn ++ [d]) d with
        | ok b =>
          simp only []
          split
          · exact ih _ _ _ _
          · rfl
        | throws e => rfl
        | ub => rfl
        | hang => rfl

/-- **C108** (the part that holds). As long as all pages are there, sizes in pixels are below 2^32 (in points, 2^64), and not just one resolution is 0, the
arithmetic of the machine makes no difference to `pdf_to_printable`: it is the function of C48 with a library that fails for an image that is too large and for
resolutions of 0. In particular nothing outside of an image is read. Missing: damaged pages and the other numbers, for which this is false (below). -/
theorem C108_same_partial {junk : Nat → Bytes} (hj : ∀ n, (junk n).length = n) (lum : Luminosity) {lim : Limits} (hl : lim.limit ≤ 32767) {lib : Library}
    (hdraw : ∀ n sc img, (lib.draw n sc img).length = img.length) (taken : List Bytes → Bool) {paper : Paper} {p : Params} (hs : Sized paper p) (hm : Meant paper p)
    (hload : ∀ pages seq, lib.pages = some pages → p.pageSequence pages = .ok seq → ∀ n ∈ seq, n ≠ 0 → lim.loads n = true) :
    pdfMachine junk lum lim lib taken paper p = pdfToPrintable lum (limited lim.limit p lib) taken paper p := by
  unfold pdfMachine pdfToPrintable
  split
  · rfl
  show (match lib.pages with
    | none => _
    | some pages => _) = match lib.pages with
    | none => _
    | some pages => _
  cases hp : lib.pages with
  | none => rfl
  | some pages =>
    simp only []
    cases hq : p.pageSequence pages with
    | ok seq =>
      simp only [runAfter]
      have loop := fun hf hdr => machinePages_eq hj (lum := lum) hl hdraw (taken := taken) hs hm hf (total := seq.length) seq (hload pages seq hp hq) 0 [] hdr []
      have px : p.format = .PWG ∨ p.format = .URF → pixelsOf paper.units paper.w p.hwResW = .ok p.widthPx ∧ pixelsOf paper.units paper.h p.hwResH = .ok p.heightPx := by
        intro hr
        obtain ⟨h1, h2, _⟩ := hm.pixels hr
        rw [hs.width] at h1 ⊢
        rw [hs.height] at h2 ⊢
        exact ⟨pixelsOf_of_lt (pixelDouble_lt h1), pixelsOf_of_lt (pixelDouble_lt h2)⟩
      cases hf : p.format with
      | PDF => exact loop (by rw [hf]; decide) _
      | Postscript => exact loop (by rw [hf]; decide) _
      | Invalid => rfl
      | PWG =>
        obtain ⟨h1, h2⟩ := px (.inl hf)
        simp only [machineRaster, h1, h2, runAfter]
        exact loop (by rw [hf]; decide) _
      | URF =>
        obtain ⟨h1, h2⟩ := px (.inr hf)
        simp only [machineRaster, h1, h2, runAfter]
        exact loop (by rw [hf]; decide) _
    | throws e => rfl
    | ub => rfl
    | hang => rfl

/-! ## From the command line -/

/-- What the parameters are like, beyond what is asked for -/
theorem pdfParams_sized {v : Vals} {outFile : Bytes} {paper : Paper} {p : Params} (h : pdfParams v outFile = .ok (some (paper, p))) :
    Sized paper p ∧ p.hwResW < 2 ^ 32 ∧ p.hwResH < 2 ^ 32 := by
  have res : ∀ a b, resolution a b < 2 ^ 32 := by
    intro a b
    unfold resolution
    split
    · unfold uint32Of; omega
    · unfold uint32Of; omega
    · decide
  have key : ∀ q ok, pagesChosen (v 3) (pdfBasic v outFile) = .ok (q, ok) → q.hwResW < 2 ^ 32 ∧ q.hwResH < 2 ^ 32 := by
    intro q ok hq
    have : q.hwResW = (pdfBasic v outFile).hwResW ∧ q.hwResH = (pdfBasic v outFile).hwResH := by
      unfold pagesChosen at hq
      split at hq
      · cases hq; exact ⟨rfl, rfl⟩
      · unfold Params.setPageRange at hq
        obtain ⟨a, _, hq⟩ := Outcome.bind_eq_ok.mp hq
        cases hq
        exact ⟨rfl, rfl⟩
    rw [this.1, this.2]
    exact ⟨res _ _, res _ _⟩
  unfold pdfParams at h
  split at h
  · cases h
  · rename_i q hq
    split at h
    · cases h
    · split at h
      · cases h
      · split at h
        · cases h
        · cases h
          exact ⟨⟨rfl, rfl, rfl, rfl⟩, key q _ hq⟩
    all_goals cases h
  all_goals cases h

theorem positions_lt {uses : List Use} {n : Nat} (h : Named positions 0 (word uses [ascii "-mp", ascii "--media-pos"]) n) : n < 50 := by
  have : ∀ x ∈ positions, x.2 < 50 := by decide +kernel
  unfold Named at h
  split at h
  · omega
  · obtain ⟨s, _, hm⟩ := h
    exact this _ hm

theorem machine_main {uses : List Use} {args : List Bytes} {inFile outFile : Bytes}
    (ha : Accounts pdfOpts pdfPos args uses [inFile, outFile]) (hh : lastUse uses [ascii "-h", ascii "--help"] = none)
    (junk : Nat → Bytes) (lum : Luminosity) (lim : Limits) (lib : Bytes → Bool → Library) (d : Disk) :
    pdfMachineMain junk lum lim lib d args = match pdfParams (lastValue uses) outFile with
      | .ok none => { out := .ok 1 }
      | .ok (some (paper, p)) =>
        let run := pdfMachine junk lum lim (lib inFile (lastUse uses [ascii "-aa", ascii "--antialias"]).isSome) (fun _ => true) paper p
        { out := codeFor run.result, file := some (outFile, d.kept outFile (blocks run.events).flatten) }
      | .throws e => { out := .throws e }
      | .ub => { out := .ub }
      | .hang => { out := .hang } := by
  obtain ⟨h1, h2, h3⟩ := C45_complete ha
  have hv : (getArgs pdfOpts pdfPos args).vals = lastValue uses := funext h2
  have h0 : (lastValue uses 0).isSome = false := by
    rw [switch_eq pdf_disjoint ha.uses (i := 0) rfl, hh]; rfl
  unfold pdfMachineMain
  simp only [hv, h0, h1, h3, Bool.false_eq_true, if_false, if_true]
  rw [switch_eq pdf_disjoint ha.uses (i := 14) (names := [ascii "-aa", ascii "--antialias"]) rfl]
  rfl

/-- **C108.** A use of the help option has no further effect, and command lines that are none end with 0 or 1 without a file. -/
theorem C108_help (junk : Nat → Bytes) (lum : Luminosity) (lim : Limits) (lib : Bytes → Bool → Library) (d : Disk) {args : List Bytes} :
    (∀ uses pos, Accounts pdfOpts pdfPos args uses pos → lastUse uses [ascii "-h", ascii "--help"] ≠ none → pdfMachineMain junk lum lim lib d args = { out := .ok 0, file := none }) ∧
    ((∀ uses pos, ¬ Accounts pdfOpts pdfPos args uses pos) → (pdfMachineMain junk lum lim lib d args).file = none ∧ ((pdfMachineMain junk lum lim lib d args).out = .ok 1 ∨
      ((pdfMachineMain junk lum lim lib d args).out = .ok 0 ∧ (ascii "-h" ∈ args ∨ ascii "--help" ∈ args)))) := by
  refine ⟨fun uses pos ha hh => ?_, fun hn => ?_⟩
  · obtain ⟨h1, h2, h3⟩ := C45_complete ha
    have h0 : ((getArgs pdfOpts pdfPos args).vals 0).isSome = true := by
      rw [h2, switch_eq pdf_disjoint ha.uses (i := 0) (names := [ascii "-h", ascii "--help"]) rfl]
      cases hl : lastUse uses [ascii "-h", ascii "--help"] with
      | none => exact absurd hl hh
      | some u => rfl
    unfold pdfMachineMain
    simp only [h0]
    rfl
  · have hs : (getArgs pdfOpts pdfPos args).success = false := by
      cases hs : (getArgs pdfOpts pdfPos args).success with
      | false => rfl
      | true =>
        obtain ⟨uses, pos, ha, _⟩ := C45_sound hs
        exact absurd ha (hn uses pos)
    have e : pdfMachineMain junk lum lim lib d args = pdfMain lum lib d args := by
      unfold pdfMachineMain pdfMain
      simp only [hs, Bool.false_eq_true, if_false]
    rw [e]
    exact C78_rejects lum lib d args hn

theorem limited_eq {limit : Nat} {p : Params} (h : ¬ Oversized limit p) (lib : Library) : limited limit p lib = lib := by
  unfold limited
  simp [h]

/-- A resolution of 0 makes a PWG page without pixels, so nothing is left to be too large. -/
theorem meant_of {limit : Nat} (hl : limit ≤ 32767) {paper : Paper} {p : Params} (hr : p.format = .PWG ∨ p.format = .URF) (ho : ¬ Oversized limit p) : Meant paper p := by
  have h1 : ¬ p.hwResW = 0 := fun h => ho (.inl h)
  have h2 : ¬ p.hwResH = 0 := fun h => ho (.inr (.inl h))
  have h3 : ¬ (limit < p.widthPx ∨ limit < p.heightPx) := fun h => ho (.inr (.inr ⟨hr, h⟩))
  refine ⟨fun _ => ⟨by omega, by omega, by omega⟩, fun h => ?_⟩
  rcases hr with hr | hr <;> rw [hr] at h <;> rcases h with h | h <;> cases h

/-- C108, from the command line to the pages in the output: C78 without its conditions on sizes, and with the arithmetic of the machine. For PWG and URF, if the
pages are there and the page is not larger than the largest image of cairo and has a resolution, the exit code is 0 and the output is the document of the
pages. (The names of the media type and of the paper have to fit their fields in the header.) -/
theorem C108_document_partial {junk : Nat → Bytes} (hj : ∀ n, (junk n).length = n) {lum : Luminosity} (hl : Pdf.Spec.Sums lum.plus) {lim : Limits}
    (hlim : lim.limit ≤ 32767) (lib : Bytes → Bool → Library) (d : Disk) {args : List Bytes} {uses : List Use}
    {inFile outFile : Bytes} (ha : Accounts pdfOpts pdfPos args uses [inFile, outFile]) (hh : lastUse uses [ascii "-h", ascii "--help"] = none)
    (hlarge : ¬ PdfTooLarge uses) (hr : ¬ PdfRefused uses outFile)
    {doc : Library} (hdoc : doc = lib inFile (lastUse uses [ascii "-aa", ascii "--antialias"]).isSome)
    {pages : Nat} (hp : doc.pages = some pages) (hfail : ∀ d, doc.failed d = false) (hdraw : ∀ n sc img, (doc.draw n sc img).length = img.length)
    (hroom : d.room outFile = none) :
    ∃ paper p seq, PdfJob uses outFile paper p ∧ p.pageSequence pages = .ok seq ∧
      (¬ Oversized lim.limit p → (∀ n ∈ seq, n ≠ 0 → lim.loads n = true) → (p.mediaType.length ≤ 64 ∧ ∀ b ∈ p.mediaType, b ≠ 0) →
        (p.paperSizeName.length ≤ 64 ∧ ∀ b ∈ p.paperSizeName, b ≠ 0) → seq.length < 2 ^ 32 → (p.format = .PWG ∨ (p.format = .URF ∧ p.hwResW = p.hwResH)) →
        ∃ bmps outs file, pdfMachineMain junk lum lim lib d args = { out := .ok 0, file := some (outFile, file) } ∧
          All2 (fun n bmp => copyRasterBuffer lum p (Pdf.Spec.picture doc paper p n) = .ok bmp) seq bmps ∧
          (p.format = .PWG → readRaster file = .ok (.pwg outs) ∧ All2 ShowsPwg (numbered p 0 bmps) outs ∧ Raster.Spec.PwgDocument (numbered p 0 bmps) file) ∧
          (p.format = .URF → readRaster file = .ok (.urf seq.length outs) ∧ All2 ShowsUrf (numbered p 0 bmps) outs ∧
            Raster.Spec.UrfDocument seq.length (numbered p 0 bmps) file)) := by
  rcases params_of ha.uses outFile with ⟨h, _⟩ | ⟨_, ⟨h, _⟩ | ⟨_, paper, p, h2, h3⟩⟩
  · exact absurd h hlarge
  · exact absurd h hr
  obtain ⟨seq, hseq⟩ := pageSequence_ok p pages
  refine ⟨paper, p, seq, h2, hseq, fun hover hload hmt hps hlen hfm => ?_⟩
  obtain ⟨hs, hrw, hrh⟩ := pdfParams_sized h3
  have hras : p.format = .PWG ∨ p.format = .URF := hfm.imp id (·.1)
  have hn1 : ¬ p.hwResW = 0 := fun h => hover (.inl h)
  have hn2 : ¬ p.hwResH = 0 := fun h => hover (.inr (.inl h))
  have hn3 : ¬ (lim.limit < p.widthPx ∨ lim.limit < p.heightPx) := fun h => hover (.inr (.inr ⟨hras, h⟩))
  have hrow := rowBytes_le p.colorMode p.widthPx
  have hfit : Raster.Spec.Fits p := by
    refine ⟨by omega, by omega, by omega, hrw, hrh, ?_, ?_, positions_lt h2.common.position, hmt, hps⟩
    · rw [hs.widthPt]; exact points_lt (by omega) (by rw [← hs.width]; omega)
    · rw [hs.heightPt]; exact points_lt (by omega) (by rw [← hs.height]; omega)
  have hhei : p.heightPx ≤ 38347922 := by omega
  have hrun := C108_same_partial hj lum hlim hdraw (fun _ => true) hs (meant_of (paper := paper) hlim hras hover) (by
    intro pages' seq' a b
    rw [hp] at a; cases a
    rw [hseq] at b; cases b
    exact hload)
  rw [limited_eq hover] at hrun
  have hmain := machine_main ha hh junk lum lim lib d
  rw [h3, ← hdoc] at hmain
  simp only [hrun] at hmain
  have hk : ∀ x, d.kept outFile x = x := by intro x; unfold Disk.kept; rw [hroom]
  rw [hk] at hmain
  have hb := pdfColor_bits h2.color
  rcases hfm with hf | ⟨hf, hsym⟩
  · obtain ⟨seq', bmps, outs, g1, g2, g3, g4, g5, g6, g7⟩ := C48_pwg_document hl (paper := paper) hf hb hfit hhei hp hfail hdraw (taken := fun _ => true) (fun _ => rfl)
    rw [hseq] at g1; cases g1
    exact ⟨bmps, outs, _, by rw [hmain, g2]; rfl, g4, fun _ => ⟨g5, g6, g7⟩, fun h => (by rw [hf] at h; cases h)⟩
  · obtain ⟨bmps, outs, g2, g3, g4, g5, g6, g7⟩ := C48_urf_document hl (paper := paper) hf hb (urfAble_of h2 hr hf hsym) hfit hhei hp hfail hdraw
      (taken := fun _ => true) (fun _ => rfl) hseq hlen
    exact ⟨bmps, outs, _, by rw [hmain, g2]; rfl, g4, fun h => (by rw [hf] at h; cases h), fun _ => ⟨g5, g6, g7⟩⟩

/-- C108: a page that is larger than the largest image, or has no resolution, is an error: the exit code is 1, and the output is empty. -/
theorem C108_refuses {junk : Nat → Bytes} (hj : ∀ n, (junk n).length = n) (lum : Luminosity) {lim : Limits}
    (hlim : lim.limit ≤ 32767) (lib : Bytes → Bool → Library) (d : Disk) {args : List Bytes} {uses : List Use}
    {inFile outFile : Bytes} (ha : Accounts pdfOpts pdfPos args uses [inFile, outFile]) (hh : lastUse uses [ascii "-h", ascii "--help"] = none)
    (hlarge : ¬ PdfTooLarge uses) (hr : ¬ PdfRefused uses outFile)
    {doc : Library} (hdoc : doc = lib inFile (lastUse uses [ascii "-aa", ascii "--antialias"]).isSome)
    {pages : Nat} (hp : doc.pages = some pages) (hdraw : ∀ n sc img, (doc.draw n sc img).length = img.length) :
    ∃ paper p seq, PdfJob uses outFile paper p ∧ p.pageSequence pages = .ok seq ∧
      (Oversized lim.limit p → Meant paper p → seq ≠ [] → (∀ n ∈ seq, n ≠ 0 → lim.loads n = true) →
        pdfMachineMain junk lum lim lib d args = { out := .ok 1, file := some (outFile, []) }) := by
  rcases params_of ha.uses outFile with ⟨h, _⟩ | ⟨_, ⟨h, _⟩ | ⟨_, paper, p, h2, h3⟩⟩
  · exact absurd h hlarge
  · exact absurd h hr
  obtain ⟨seq, hseq⟩ := pageSequence_ok p pages
  refine ⟨paper, p, seq, h2, hseq, fun hover hm hne hload => ?_⟩
  obtain ⟨hs, hrw, hrh⟩ := pdfParams_sized h3
  have hrun := C108_same_partial hj lum hlim hdraw (fun _ => true) hs hm (by
    intro pages' seq' a b
    rw [hp] at a; cases a
    rw [hseq] at b; cases b
    exact hload)
  have hmain := machine_main ha hh junk lum lim lib d
  rw [h3, ← hdoc] at hmain
  simp only [hrun] at hmain
  have kept : d.kept outFile [] = [] := by unfold Disk.kept; split <;> simp
  have hstop : ∃ e, pdfToPrintable lum (limited lim.limit p doc) (fun _ => true) paper p = { events := [], result := .ok (some e) } := by
    obtain ⟨n, rest, rfl⟩ := List.exists_cons_of_ne_nil hne
    have loop : ∀ hdr, pagesLoop lum (limited lim.limit p doc) (fun _ => true) paper p (n :: rest).length (n :: rest) 0 [] hdr [] = { events := [], result := .ok (some .cairo) } := by
      intro hdr
      rw [pagesLoop]
      simp [limited, hover]
    have hp' : (limited lim.limit p doc).pages = some pages := hp
    unfold pdfToPrintable
    split
    · exact ⟨_, rfl⟩
    · rw [hp']
      simp only [hseq, loop]
      split <;> exact ⟨_, rfl⟩
  obtain ⟨e, hstop⟩ := hstop
  rw [hmain, hstop]
  simp only [blocks, List.flatten_nil, kept]
  rfl

/-! ## What does not hold -/

/-- a document of one page -/
def onePage : Library :=
  { pages := some 1, size := fun _ => (595, 842), draw := fun _ _ img => img, failed := fun _ => false, shown := fun _ => [1], finished := fun _ => [2] }

/-- the limits of cairo, and all pages there -/
def cairoLimits : Limits := ⟨32767, fun _ => true⟩

/-- a disk -/
def anyDisk : Disk := ⟨fun _ => none, fun _ => none⟩

/-- **C108 is false with a resolution of 0 in one direction**: for PWG the other resolution is divided by it. (The full claim would be that the command line is
refused, as with 0 in both directions, `C108_refuses`.) -/
theorem C108_zero_false : ∃ args, (getArgs pdfOpts pdfPos args).success = true ∧
    (pdfMachineMain (List.replicate · 77) codeLuminosity cairoLimits (fun _ _ => onePage) anyDisk args).out = .ub :=
  ⟨[ascii "-ry", ascii "0", ascii "a.pdf", ascii "b.pwg"], by decide +kernel, by decide +kernel⟩

/-- **C108 is false with pages of 2^32 pixels and more**: cairo gets the size as an `int`, so that the image is smaller than the page, and pixels outside of it are
read. A page of 4294967297 by 1 pixels has an image of 1 by 1. (The full claim would be that this is an error, as for smaller pages that are too large.) -/
theorem C108_wraps_false : ∃ args, (getArgs pdfOpts pdfPos args).success = true ∧ imageSize cairoLimits.limit 4294967297 1 = some (1, 1) ∧
    (pdfMachineMain (List.replicate · 77) codeLuminosity cairoLimits (fun _ _ => onePage) anyDisk args).out = .ub :=
  ⟨[ascii "-r", ascii "1", ascii "--paper-size", ascii "a_4294967297x1in", ascii "-c", ascii "gray8", ascii "a.pdf", ascii "b.pwg"],
    by decide +kernel, by decide +kernel, by decide +kernel⟩

/-- **C108 is false of a document with a damaged page**: its size is read from variables that have no value. (The full claim would be that this is an error.) -/
theorem C108_damaged_false : ∃ args, (getArgs pdfOpts pdfPos args).success = true ∧
    (pdfMachineMain (List.replicate · 77) codeLuminosity ⟨32767, fun n => decide (n = 1)⟩ (fun _ _ => { onePage with pages := some 2 }) anyDisk args).out = .ub :=
  ⟨[ascii "a.pdf", ascii "b.pdf"], by decide +kernel, by decide +kernel⟩

/-- small paper for the examples -/
def smallPaper : Paper := { name := ascii "a_2x1in", units := .Inches, w := 2, h := 1 }

/-- parameters for it -/
def smallParams : Params := withPaper smallPaper { format := .PWG, hwResW := 2, hwResH := 3, colorMode := .Gray8 }

/-- The hypotheses are met by a page of 4 by 3 pixels, which is not too large; by one that is; and by resolutions of 0. -/
example : Sized smallPaper smallParams ∧ Meant smallPaper smallParams ∧ ¬ Oversized cairoLimits.limit smallParams ∧
    Oversized cairoLimits.limit (withPaper smallPaper { format := .PWG, hwResW := 20000, hwResH := 3 }) ∧
    Meant smallPaper (withPaper smallPaper { format := .PWG, hwResW := 20000, hwResH := 3 }) ∧
    Oversized cairoLimits.limit (withPaper smallPaper { format := .PWG, hwResW := 0, hwResH := 0 }) ∧
    Meant smallPaper (withPaper smallPaper { format := .PWG, hwResW := 0, hwResH := 0 }) := by
  refine ⟨⟨rfl, rfl, rfl, rfl⟩, ⟨fun _ => by decide +kernel, fun h => by revert h; decide +kernel⟩, by decide +kernel, by decide +kernel,
    ⟨fun _ => by decide +kernel, fun h => by revert h; decide +kernel⟩, by decide +kernel, ⟨fun _ => by decide +kernel, fun h => by revert h; decide +kernel⟩⟩

/-- Runs from the command line: a page of 4 by 3 pixels; one that is too large; and without a resolution. -/
example :
    (pdfMachineMain (List.replicate · 77) codeLuminosity cairoLimits (fun _ _ => onePage) anyDisk
      [ascii "-rx", ascii "2", ascii "-ry", ascii "3", ascii "--paper-size", ascii "a_2x1in", ascii "-c", ascii "gray8", ascii "a.pdf", ascii "b.pwg"]).out = .ok 0 ∧
    pdfMachineMain (List.replicate · 77) codeLuminosity cairoLimits (fun _ _ => onePage) anyDisk
      [ascii "-r", ascii "20000", ascii "--paper-size", ascii "a_2x1in", ascii "a.pdf", ascii "b.pwg"] = { out := .ok 1, file := some (ascii "b.pwg", []) } ∧
    pdfMachineMain (List.replicate · 77) codeLuminosity cairoLimits (fun _ _ => onePage) anyDisk
      [ascii "-r", ascii "0", ascii "a.pdf", ascii "b.pwg"] = { out := .ok 1, file := some (ascii "b.pwg", []) } :=
  ⟨by decide +kernel, by decide +kernel, by decide +kernel⟩

end Verif.Convert
