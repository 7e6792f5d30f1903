import Verif.Convert.PnmProps
import Verif.Raster.PointersProps

/-!
# The sizes of pictures in ppm2pwg, in the arithmetic of the machine (C100)

`readPnm` and `ppmMain` compute the sizes of pages in natural numbers. Here the loop of ppm2pwg is modelled with the numbers that the code has: pixel counts
are doubles (`paperSizeW`, `paperSizeH`), products are made in `size_t` and wrap, the size of a page is a product of doubles put back into a `size_t`, and the
encoder is the one with its pointers (`Ptr.bmpToPwg`). C100 shows that there is no difference for the pictures of C79, and what happens outside.
-/

set_option linter.unusedVariables false

namespace Verif.Convert

open Tools Tools.Spec Client Client.Spec Raster Raster.Spec Convert.Spec

/-- A double (not negative) put into a `size_t`: without the fraction, and undefined if there is no such number -/
def toSize (q : Rat) : Outcome Nat := if q < 18446744073709551616 then .ok q.floor.toNat else .ub

/-- A size in points, put into a `uint32_t` (printparameters.cpp 81-109 with `Pixels`; ppm2pwg.cpp 220-221). Without a resolution it is infinite, or not a number. -/
def toPoints (px res : Nat) : Outcome Nat :=
  if res = 0 then .ub
  else if pixelPoints' px res < 4294967296 then .ok (pixelPoints' px res) else .ub
where
  /-- the points for a number of pixels that is put into a double first (ppm2pwg_main.cpp 241-242) -/
  pixelPoints' (px res : Nat) : Nat := (roundAway (sizeInPoints .Pixels (dbl px) res)).toNat

/-- Sizes in points are only in the header of PWG (ppm2pwg.cpp 220-221). -/
def machinePoints (q : Params) (px res : Nat) : Outcome Nat := if q.format = .URF then .ok 0 else toPoints px res

/-- `getPaperSizeWInPixels` (printparameters.cpp 16-29 with `Pixels`) of a width that comes from `stoul` (ppm2pwg_main.cpp 241) -/
def machineWidth (q : Params) : Outcome Nat := toSize (dbl q.widthPx)

/-- ppm2pwg_main.cpp 244: `paperSizeH*getPaperSizeWInBytes()` -/
def machineSize (q : Params) : Outcome Nat := do
  let w ← machineWidth q
  let row ← ({ q with widthPx := w } : Params).widthBytes
  toSize (dbl (dbl q.heightPx * dbl ((row % Ptr.W : Nat) : Rat)))

/-- ppm2pwg_main.cpp 247: `bmp_to_pwg` with the sizes as its headers and loops get them. `junk` are the bytes of a new buffer.
(When something is undefined and something else throws, the model has the undefined behavior.) -/
def machinePage (junk : Nat → Bytes) (q : Params) (page : Nat) (bmp : Bytes) : Outcome Bytes := do
  let w ← machineWidth q
  let h ← toSize (dbl q.heightPx)
  let row ← ({ q with widthPx := w } : Params).widthBytes
  let ptW ← machinePoints q q.widthPx q.hwResW
  let ptH ← machinePoints q q.heightPx q.hwResH
  Ptr.bmpToPwg { q with widthPx := w, heightPx := h, widthPt := ptW, heightPt := ptH } page bmp (junk (row % Ptr.W))

/-- The loop, ppm2pwg_main.cpp 169-253 -/
def machineLoop (junk : Nat → Bytes) (p : Params) (page : Nat) (s : Bytes) : Bytes × Outcome Nat :=
  match h : pnmHeader (fun _ _ => 0) p s with
  | .error e => encodeUntil [] e
  | .ok (q, s1) =>
    match machineSize q with
    | .ok size =>
      if s1.length < size then ([], .throws .outOfRange)
      else
        match machinePage junk q page (s1.take size) with
        | .ok enc =>
          if s1.drop size = [] then (enc, .ok 0)
          else
            let r := machineLoop junk q (page + 1) (s1.drop size)
            (enc ++ r.1, r.2)
        | .throws e => ([], .throws e)
        | .ub => ([], .ub)
        | .hang => ([], .hang)
    | .throws e => ([], .throws e)
    | .ub => ([], .ub)
    | .hang => ([], .hang)
termination_by s.length
decreasing_by have := pnmHeader_lt h; simp; omega

/-- `main`, ppm2pwg_main.cpp 34-254 -/
def ppmMachine (junk : Nat → Bytes) (d : Disk) (args : List Bytes) : Done := ppmWith (fun p s => machineLoop junk p 1 s) d args

/-! ## No difference for whole pictures -/

theorem toSize_nat {n : Nat} (h : n < 2 ^ 53) : toSize (dbl (n : Rat)) = .ok n := by
  unfold toSize
  rw [dbl_nat h]
  have h1 : (n : Rat) < 18446744073709551616 := by
    have h2 : n < 18446744073709551616 := by omega
    exact_mod_cast h2
  rw [if_pos h1, show ((n : Rat)).floor = (n : Int) from by rw [← Rat.intCast_natCast, Rat.floor_intCast]]
  rfl

theorem toPoints_eq {px res : Nat} (h : px < 2 ^ 32) (hr : 0 < res) (hp : pixelPoints px res < 2 ^ 32) : toPoints px res = .ok (pixelPoints px res) := by
  have e : toPoints.pixelPoints' px res = pixelPoints px res := by
    unfold toPoints.pixelPoints' pixelPoints
    rw [dbl_nat (by omega)]
  unfold toPoints
  rw [if_neg (by omega), e, if_pos (by omega)]

theorem machineSize_eq {q : Params} (hw : q.widthPx < 2 ^ 32) (hh : q.heightPx < 2 ^ 32) (hr : rowBytes q.colorMode q.widthPx < 2 ^ 31)
    (hs : q.heightPx * rowBytes q.colorMode q.widthPx < 2 ^ 53) : machineSize q = .ok (q.heightPx * rowBytes q.colorMode q.widthPx) := by
  unfold machineSize machineWidth
  rw [toSize_nat (by omega)]
  simp only [Outcome.bind_ok]
  rw [widthBytes_eq]
  simp only [Outcome.bind_ok]
  rw [Nat.mod_eq_of_lt (show rowBytes q.colorMode q.widthPx < Ptr.W by unfold Ptr.W; omega), dbl_nat (by omega), dbl_nat (by omega)]
  have := toSize_nat hs
  rwa [Nat.cast_mul] at this

/-- In URF there are no sizes in points. -/
theorem urf_points (p : Params) (page : Nat) (bmp junk : Bytes) (a b : Nat) (h : p.format = .URF) :
    Ptr.bmpToPwg { p with widthPt := a, heightPt := b } page bmp junk = Ptr.bmpToPwg p page bmp junk := by
  have hh : ∀ bs, pageHdr { p with widthPt := a, heightPt := b } bs = pageHdr p bs := by
    intro bs
    unfold pageHdr
    rw [if_neg (by simp [h]), if_neg (by simp [h])]
    rfl
  have hw : ({ p with widthPt := a, heightPt := b } : Params).widthBytes = p.widthBytes := rfl
  unfold Ptr.bmpToPwg
  dsimp only
  rw [hw]
  have hb : isBackside { p with widthPt := a, heightPt := b } page = isBackside p page := rfl
  rw [hb, hh]
  rfl

theorem machinePage_eq {junk : Nat → Bytes} (hj : ∀ n, (junk n).length = n) {q : Params} {page : Nat} {bmp : Bytes} (hf : Fits { q with widthPt := pixelPoints q.widthPx q.hwResW, heightPt := pixelPoints q.heightPx q.hwResH })
    (hr : rowBytes q.colorMode q.widthPx < 2 ^ 31) (hb : bmp.length = q.heightPx * rowBytes q.colorMode q.widthPx) (hs : bmp.length < 2 ^ 53)
    (h1 : 0 < q.hwResW) (h2 : 0 < q.hwResH) :
    machinePage junk q page bmp = bmpToPwg { q with widthPt := pixelPoints q.widthPx q.hwResW, heightPt := pixelPoints q.heightPx q.hwResH } page bmp := by
  have hw := hf.width
  have hh := hf.height
  unfold machinePage machineWidth
  rw [toSize_nat (Nat.lt_trans hw (by decide)), toSize_nat (Nat.lt_trans hh (by decide))]
  simp only [Outcome.bind_ok]
  rw [widthBytes_eq]
  simp only [Outcome.bind_ok]
  rw [Nat.mod_eq_of_lt (show rowBytes q.colorMode q.widthPx < Ptr.W by unfold Ptr.W; omega)]
  have key : ∀ p : Params, p.colorMode = q.colorMode → p.widthPx = q.widthPx → p.heightPx = q.heightPx →
      Ptr.bmpToPwg p page bmp (junk (rowBytes q.colorMode q.widthPx)) = bmpToPwg p page bmp := by
    intro p e1 e2 e3
    exact Ptr.bmpToPwg_refines p page bmp _ (by rw [e1, e2, e3]; omega) (by omega) (by rw [e1, e2]; exact hr) (by rw [e1, e2]; exact hj _)
  by_cases hu : q.format = .URF
  · simp only [machinePoints, if_pos hu, Outcome.bind_ok]
    rw [← key { q with widthPt := pixelPoints q.widthPx q.hwResW, heightPt := pixelPoints q.heightPx q.hwResH } rfl rfl rfl]
    rw [urf_points q _ _ _ _ _ hu]
    exact (urf_points q _ _ _ _ _ hu).symm
  · simp only [machinePoints, if_neg hu]
    rw [toPoints_eq hw h1 hf.ptW, toPoints_eq hh h2 hf.ptH]
    simp only [Outcome.bind_ok]
    exact key _ rfl rfl rfl

/-- One picture, and what comes next. -/
theorem machineLoop_step {junk : Nat → Bytes} (hj : ∀ n, (junk n).length = n) (p : Params) (page : Nat) (g : PnmPage) (more : Bytes) (hwf : g.Wf) (hl : g.last = 10)
    (hx : (g.pixels ++ more).head? ≠ some 35) (hurf : g.kind = .pbm → p.format ≠ .URF) (hf : Fits (g.params pixelPoints p))
    (hr : rowBytes g.kind.mode g.width < 2 ^ 31) (hs : g.pixels.length < 2 ^ 53) (h1 : 0 < p.hwResW) (h2 : 0 < p.hwResH) :
    machineLoop junk p page (g.bytes ++ more) =
      match bmpToPwg (g.params pixelPoints p) page g.pixels with
      | .ok enc =>
        if more = [] then (enc, .ok 0)
        else (enc ++ (machineLoop junk (g.params (fun _ _ => 0) p) (page + 1) more).1, (machineLoop junk (g.params (fun _ _ => 0) p) (page + 1) more).2)
      | .throws e => ([], .throws e)
      | .ub => ([], .ub)
      | .hang => ([], .hang) := by
  have hh := pnmHeader_bytes (fun _ _ => 0) p g more hwf hl hx hurf
  have hsz : g.height * rowBytes g.kind.mode g.width = g.pixels.length := hwf.size.symm
  have hsize : machineSize (g.params (fun _ _ => 0) p) = .ok g.pixels.length := by
    have := machineSize_eq (q := g.params (fun _ _ => 0) p) hwf.width hwf.height hr (by
      show g.height * rowBytes g.kind.mode g.width < 2 ^ 53
      omega)
    rw [this]
    exact congrArg _ hsz
  have hpage : machinePage junk (g.params (fun _ _ => 0) p) page g.pixels = bmpToPwg (g.params pixelPoints p) page g.pixels :=
    machinePage_eq hj (q := g.params (fun _ _ => 0) p) hf hr hwf.size hs h1 h2
  conv => lhs; unfold machineLoop
  split
  · rename_i e he; rw [hh] at he; cases he
  · rename_i q s1 he
    rw [hh] at he
    cases he
    rw [hsize]
    simp only
    rw [if_neg (by simp)]
    simp only [List.take_left, List.drop_left, hpage]

theorem machineLoop_stop {s : Bytes} (h : NoPicture s) (junk : Nat → Bytes) (p : Params) (page : Nat) : machineLoop junk p page s = ([], .ok 1) := by
  have hr := noPicture_read h (fun _ _ => 0) p page
  have hh : pnmHeader (fun _ _ => 0) p s = .error .refused := by
    unfold readPnm at hr
    split at hr
    · rename_i e he; rw [he]; cases hr; rfl
    · rename_i q s1 he
      rw [widthBytes_eq] at hr
      simp only at hr
      split at hr
      · cases hr
      · split at hr
        · cases hr
        · cases hr
  unfold machineLoop
  split
  · rename_i e he; rw [hh] at he; cases he; rfl
  · rename_i he; rw [hh] at he; cases he

/-- The pictures, and what comes after them. -/
theorem machineLoop_then {junk : Nat → Bytes} (hj : ∀ n, (junk n).length = n) {gs : List PnmPage} (hne : gs ≠ [])
    (h : ∀ g ∈ gs, g.Wf ∧ g.last = 10 ∧ g.pixels.head? ≠ some 35)
    {more : Bytes} (hm : more = [] ∨ NoPicture more) (p : Params) (page : Nat) (hurf : ∀ g ∈ gs, g.kind = .pbm → p.format ≠ .URF)
    (hf : ∀ g ∈ gs, Fits (g.params pixelPoints p) ∧ rowBytes g.kind.mode g.width < 2 ^ 31 ∧ g.pixels.length < 2 ^ 53) (h1 : 0 < p.hwResW) (h2 : 0 < p.hwResH) :
    machineLoop junk p page ((gs.map PnmPage.bytes).flatten ++ more) = encodeUntil (pagesOf pixelPoints p page gs) (if more = [] then .done else .refused) := by
  have hmh : more.head? ≠ some 35 := by
    rcases hm with rfl | hm
    · simp
    · exact hm.2.1
  induction gs generalizing p page with
  | nil => exact absurd rfl hne
  | cons g gs ih =>
    obtain ⟨hwf, hl, hx⟩ := h g (by simp)
    obtain ⟨f1, f2, f3⟩ := hf g (by simp)
    simp only [List.map_cons, List.flatten_cons, List.append_assoc]
    rw [machineLoop_step hj p page g _ hwf hl (head?_append_cases hx (flatten_head hmh)) (hurf g (by simp)) f1 f2 f3 h1 h2]
    simp only [pagesOf, encodeUntil]
    cases hb : bmpToPwg (g.params pixelPoints p) page g.pixels with
    | ok enc =>
      simp only
      cases gs with
      | nil =>
        rcases hm with rfl | hm
        · simp [pagesOf, encodeUntil]
        · simp only [List.map_nil, List.flatten_nil, List.nil_append, machineLoop_stop hm, if_neg hm.1]
          rfl
      | cons g' gs' =>
        rw [if_neg]
        · rw [ih (by simp) (fun g hg => h g (List.mem_cons_of_mem _ hg)) (g.params (fun _ _ => 0) p) (page + 1)
            (fun g hg => hurf g (List.mem_cons_of_mem _ hg)) (fun g hg => hf g (List.mem_cons_of_mem _ hg)) h1 h2]
          have : pagesOf pixelPoints (g.params (fun _ _ => 0) p) (page + 1) (g' :: gs') = pagesOf pixelPoints p (page + 1) (g' :: gs') :=
            pagesOf_params pixelPoints (g.params (fun _ _ => 0) p) g _ _ |>.symm.trans (pagesOf_params pixelPoints p g _ _)
          rw [this]
        · have := bytes_head g'
          intro hc
          simp only [List.map_cons, List.flatten_cons, List.append_assoc, List.append_eq_nil_iff] at hc
          rw [hc.1] at this; cases this
    | throws e => rfl
    | ub => rfl
    | hang => rfl

/-- What `ppmWith` makes of two loops that agree on the input -/
theorem ppmWith_congr {f g : Params → Bytes → Bytes × Outcome Nat} {d : Disk} {args : List Bytes} {uses : List Use} {inFile outFile : Bytes}
    (ha : Accounts ppmOpts ppmPos args uses [inFile, outFile]) (h : ∀ s, d.read inFile = some s → f (ppmParams (lastValue uses) outFile) s = g (ppmParams (lastValue uses) outFile) s) :
    ppmWith f d args = ppmWith g d args := by
  obtain ⟨h1, h2, h3⟩ := C45_complete ha
  have hv : (getArgs ppmOpts ppmPos args).vals = lastValue uses := funext h2
  unfold ppmWith
  simp only [hv, h1, h3, if_true]
  split
  · rfl
  · split
    · rfl
    · show (match d.read inFile with | none => _ | some s => _) = (match d.read inFile with | none => _ | some s => _)
      split
      · rfl
      · rename_i s hs
        rw [show ([inFile, outFile] : List Bytes).getD 1 [] = outFile from rfl, h s hs]

/-! ## Theorems -/

/-- **C100** (the part that holds). With sizes computed as the code computes them - in doubles, and in a `size_t` that wraps - and with the pointers of the
encoder, ppm2pwg converts pictures as C79 says: they become the pages of the output, in order, by the standard of its format. Rows must have less than 2^31 bytes
(C98) and a picture less than 2^53; what a new buffer holds makes no difference. Missing: what C79 leaves out, and headers of pictures with numbers that their pixels
do not match (`C100_wraps_false`, `C100_undefined_false`). -/
theorem C100_converts_partial (junk : Nat → Bytes) (hj : ∀ n, (junk n).length = n) (d : Disk) {args : List Bytes} {uses : List Use} {inFile outFile : Bytes}
    (ha : Accounts ppmOpts ppmPos args uses [inFile, outFile])
    (hh : lastUse uses [ascii "-h", ascii "--help"] = none) (hr : ¬ PnmRefused uses outFile) {gs : List PnmPage} (hne : gs ≠ [])
    (hg : ∀ g ∈ gs, g.Wf ∧ g.last = 10 ∧ g.pixels.head? ≠ some 35) {more : Bytes} (hm : more = [] ∨ NoPicture more)
    (hread : d.read inFile = some ((gs.map PnmPage.bytes).flatten ++ more)) (hroom : d.room outFile = none)
    (hrow : ∀ g ∈ gs, rowBytes g.kind.mode g.width < 2 ^ 31 ∧ g.pixels.length < 2 ^ 53) :
    ∃ pt p count, (∀ px res : Nat, 0 < res → AboutWhole (pt px res) ((px : Rat) / res * 72)) ∧ PnmJob uses outFile p ∧
      Counted (2 ^ 31) 0 (word uses [ascii "--num-pages"]) count ∧
      (0 < p.hwResW → 0 < p.hwResH → (p.format = .URF → p.hwResW = p.hwResH) →
        (∀ g ∈ gs, Raster.Spec.Fits (g.params pt p) ∧ (g.kind = .pbm → p.format = .PWG)) →
        ∃ file, ppmMachine junk d args = { out := .ok (if more = [] then 0 else 1), file := some (outFile, file) } ∧
          (p.format = .PWG → Raster.Spec.PwgDocument (pagesOf pt p 1 gs) file ∧
            ((∀ g ∈ gs, g.kind ≠ .pgm16 ∧ g.kind ≠ .ppm16) → ∃ outs, readRaster file = .ok (.pwg outs) ∧ All2 ShowsPwg (pagesOf pt p 1 gs) outs)) ∧
          (p.format = .URF → Raster.Spec.UrfDocument count (pagesOf pt p 1 gs) file ∧
            ∃ outs, readRaster file = .ok (.urf count outs) ∧ All2 ShowsUrf (pagesOf pt p 1 gs) outs)) := by
  refine ⟨pixelPoints, ppmParams (lastValue uses) outFile, _, fun px res _ => pixelPoints_about px res, ppm_job ha.uses outFile, count_of ha.uses, ?_⟩
  intro h1 h2 hs hk
  have hurf : ∀ g ∈ gs, g.kind = .pbm → (ppmParams (lastValue uses) outFile).format ≠ .URF := by
    intro g hg hb hu
    rw [(hk g hg).2 hb] at hu; cases hu
  have he : ppmMachine junk d args = ppmMain d args := by
    refine ppmWith_congr ha ?_
    intro s hs'
    rw [hread] at hs'
    cases hs'
    rw [machineLoop_then hj hne hg hm _ 1 hurf (fun g hg => ⟨(hk g hg).1, hrow g hg⟩) h1 h2, readPnm_then pixelPoints hne hg hm _ 1 hurf]
  rw [he]
  exact ppm_converts d ha hh hr hne hg hm hread hroom hs hk

/-- A gray picture that is 2^63 pixels wide by its header, with 16 bits per color. A good one follows. -/
def wrapping : Bytes := ascii "P5\n9223372036854775808 1\n65535\n" ++ plainPage.bytes

/-- **C100 does not extend to pictures of any size.** The number of bytes in a row of this picture wraps to 0, so that no byte is missing, and ppm2pwg ends well:
the output has a page for it, 0 pixels wide and without pixels. (The full claim would be that a picture whose pixels are not there is refused; with natural numbers
the reading of the pixels throws.) -/
theorem C100_wraps_false : ∃ args out outs, (getArgs ppmOpts ppmPos args).success = true ∧
    (ppmMain (oneDisk wrapping) args).out = .throws .outOfRange ∧
    ppmMachine (List.replicate · 77) (oneDisk wrapping) args = { out := .ok 0, file := some (ascii "b.urf", out) } ∧
    readRaster out = .ok (.urf 0 outs) ∧ outs.map (fun o => (o.width, o.height, o.bmp.length)) = [(0, 1, 0), (3, 1, 3)] := by
  have h : (match (ppmMachine (List.replicate · 77) (oneDisk wrapping) [ascii "a.pgm", ascii "b.urf"]).file with
    | some (n, file) => match readRaster file with
      | .ok (.urf c outs) => decide (n = ascii "b.urf" ∧ c = 0 ∧ outs.map (fun o => (o.width, o.height, o.bmp.length)) = [(0, 1, 0), (3, 1, 3)])
      | _ => false
    | none => false) = true := by decide +kernel
  have h0 : (ppmMachine (List.replicate · 77) (oneDisk wrapping) [ascii "a.pgm", ascii "b.urf"]).out = .ok 0 := by decide +kernel
  split at h
  · rename_i n file hf
    split at h
    · rename_i c outs ho
      obtain ⟨rfl, rfl, h3⟩ := of_decide_eq_true h
      refine ⟨[ascii "a.pgm", ascii "b.urf"], file, outs, by decide +kernel, by decide +kernel, ?_, ho, h3⟩
      rw [← hf, ← h0]
    · cases h
  · cases h

/-- C100 does not extend to a resolution of 0, nor to sizes of 2^32 points (the first number that an `uint32_t` does not have), nor to a width that is a number but not one of a `size_t` when it has been a double: what happens is not defined. -/
theorem C100_undefined_false : ∃ args args' args'', (getArgs ppmOpts ppmPos args).success = true ∧ (getArgs ppmOpts ppmPos args').success = true ∧
    (getArgs ppmOpts ppmPos args'').success = true ∧
    (ppmMachine (List.replicate · 77) (oneDisk oneLine) args).out = .ub ∧
    (ppmMachine (List.replicate · 77) (oneDisk (ascii "P5\n18446744073709551615 1\n255\n")) args').out = .ub ∧
    (ppmMachine (List.replicate · 77) (oneDisk (ascii "P5\n0 536870912\n255\n")) args'').out = .ub :=
  ⟨[ascii "-r", ascii "0", ascii "a.pgm", ascii "b.pwg"], [ascii "a.pgm", ascii "b.pwg"], [ascii "-r", ascii "9", ascii "a.pgm", ascii "b.pwg"], by decide +kernel, by decide +kernel,
    by decide +kernel, by decide +kernel, by decide +kernel, by decide +kernel⟩

/-- The hypotheses of `C100_converts_partial` are those of C79 (see there); a run with the arithmetic of the machine, on the same pictures. -/
example : (ppmMachine (List.replicate · 77) (oneDisk (plainPage.bytes ++ plainPage.bytes ++ [10]))
      [ascii "-r", ascii "600", ascii "--num-pages", ascii "2", ascii "-mt", ascii "envelope", ascii "a.pgm", ascii "b.urf"]).out = .ok 1 ∧
    rowBytes plainPage.kind.mode plainPage.width < 2 ^ 31 ∧ plainPage.pixels.length < 2 ^ 53 ∧ ∀ n, (List.replicate n (77 : UInt8)).length = n :=
  ⟨by decide +kernel, by decide, by decide, fun n => List.length_replicate⟩

end Verif.Convert
