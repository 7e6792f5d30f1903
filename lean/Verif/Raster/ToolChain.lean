import Verif.Raster.PnmLemmas
import Verif.Raster.DocLemmas

/-!
# Model of whole runs of ppm2pwg and pwg2ppm (utils/ppm2pwg_main.cpp, utils/pwg2ppm_main.cpp)
-/

namespace Verif.Raster

/-- A run of ppm2pwg on the pictures `s` with `--num-pages pages`: the file that is written, ppm2pwg_main.cpp 126-238. `none` stands for
a run that ends with an error or an exception (what has been written until then is not described). -/
def ppm2pwg (pt : Nat → Nat → Nat) (pages : Nat) (p : Params) (s : Bytes) : Option Bytes :=
  let r := readPnm pt p 1 s
  match r.2, encodePages r.1 with
  | .done, .ok enc => some ((if p.format = .URF then urfFileHdr pages else pwgFileHdr) ++ enc)
  | _, _ => none

/-- The files that `write_ppm` writes for the pages, which are counted from `n` (pwg2ppm.cpp 70-72): names and contents. -/
def pictureFiles (outfilePrefix : Bytes) : Nat → List PageOut → List (Bytes × Bytes)
  | _, [] => []
  | n, o :: os => (outfilePrefix ++ (dec n ++ (writePpm o).1), (writePpm o).2) :: pictureFiles outfilePrefix (n + 1) os

/-- A run of pwg2ppm: the files that are written, pwg2ppm_main.cpp 26-70. `none` for "Unknown file format". -/
def pwg2ppm (outfilePrefix file : Bytes) : Outcome (Option (List (Bytes × Bytes))) := do
  match ← readRaster file with
  | .pwg pages => return some (pictureFiles outfilePrefix 1 pages)
  | .urf _ pages => return some (pictureFiles outfilePrefix 1 pages)
  | .unknown => return none

namespace Spec

/-- A picture in the plainest form: no comments, one space and newlines between the numbers. -/
def PnmPage.plain (g : PnmPage) : PnmPage := { g with comments := [], sep1 := [32], sep2 := [10], last := 10 }

/-- The usual extension of a file name for the kind of picture. -/
def PnmKind.ext : PnmKind → Bytes
  | .pbm => ascii ".pbm"
  | .pgm8 | .pgm16 => ascii ".pgm"
  | .ppm8 | .ppm16 => ascii ".ppm"

/-- The files expected for the pictures `gs`: named after the page number, in plain form. -/
def expectedFiles (outfilePrefix : Bytes) : Nat → List PnmPage → List (Bytes × Bytes)
  | _, [] => []
  | n, g :: gs => (outfilePrefix ++ (dec n ++ g.kind.ext), g.plain.bytes) :: expectedFiles outfilePrefix (n + 1) gs

/-- What becomes of bitmaps: there is a line "255" before their pixels, which belongs into pictures with levels only. -/
def PnmPage.withLine (g : PnmPage) : PnmPage := if g.kind = .pbm then { g with pixels := ascii "255\n" ++ g.pixels } else g

end Spec

open Spec

theorem readUrfPages_bits {file : Bytes} {outs : List PageOut} (h : readUrfPages file = .ok outs) :
    ∀ o ∈ outs, o.bits = 8 ∧ o.black = false := by
  fun_induction readUrfPages file generalizing outs with
  | case1 => cases h; simp
  | case2 file hne x hx y hy ih =>
    rw [Outcome.bind_eq_ok] at h
    obtain ⟨more, h1, h2⟩ := h
    cases h2
    intro o ho
    rcases List.mem_cons.mp ho with rfl | ho
    · exact ⟨rfl, rfl⟩
    · exact ih h1 o ho
  | _ => cases h

theorem writePpm_plain (g : PnmPage) (o : PageOut) (hk : g.kind = .pgm8 ∨ g.kind = .ppm8) (hw : o.width = g.width)
    (hh : o.height = g.height) (hc : o.colors = colors g.kind.mode) (hb : o.bits = 8) (hp : o.bmp = g.pixels) :
    writePpm o = (g.kind.ext, g.plain.bytes) := by
  unfold writePpm PnmPage.plain PnmPage.bytes
  rw [hc, hb, hw, hh, hp]
  rcases hk with hk | hk <;> rw [hk]
  · simp [PnmKind.mode, colors, PnmKind.ext, PnmKind.magic, PnmKind.maxval, ascii]
  · simp [PnmKind.mode, colors, PnmKind.ext, PnmKind.magic, PnmKind.maxval, ascii]

theorem writePpm_bitmap (g : PnmPage) (o : PageOut) (hk : g.kind = .pbm) (hw : o.width = g.width)
    (hh : o.height = g.height) (hc : o.colors = 1) (hb : o.bits = 1) (hp : (if o.black then o.bmp else invert o.bmp) = g.pixels) :
    writePpm o = (g.withLine.kind.ext, g.withLine.plain.bytes) := by
  unfold writePpm PnmPage.plain PnmPage.withLine PnmPage.bytes
  rw [if_pos hk]
  cases hbl : o.black <;> simp [hbl] at hp <;> simp [hc, hb, hw, hh, hp, hk, PnmKind.ext, PnmKind.magic, ascii]

theorem pictureFiles_expected (pre : Bytes) (gs : List PnmPage) (outs : List PageOut)
    (h : All2 (fun g o => writePpm o = (g.kind.ext, g.plain.bytes)) gs outs) (n : Nat) :
    pictureFiles pre n outs = expectedFiles pre n gs := by
  induction h generalizing n with
  | nil => rfl
  | cons h _ ih => simp only [pictureFiles, expectedFiles, h, ih]

/-- From the lists of parameters, numbers and pixels back to the pages, and to what they show. -/
theorem all2_pages {pt : Nat → Nat → Nat} {p : Params} {R : Params × Nat × Bytes → PageOut → Prop} {pages : List (Params × Nat × Bytes)}
    {outs : List PageOut} (ha : All2 R pages outs) {gs : List PnmPage} (h2 : pages.map (fun x => x.2.2) = gs.map PnmPage.pixels)
    (h3 : pages.map (fun x => x.1) = gs.map (PnmPage.params pt p)) :
    All2 (fun g o => ∃ page, R (g.params pt p, page, g.pixels) o) gs outs := by
  induction ha generalizing gs with
  | nil =>
    cases gs with
    | nil => exact .nil
    | cons g gs => cases h2
  | @cons x o xs os h _ ih =>
    cases gs with
    | nil => cases h2
    | cons g gs =>
      simp only [List.map_cons, List.cons.injEq] at h2 h3
      obtain ⟨q, page, bmp⟩ := x
      refine .cons ⟨page, ?_⟩ (ih h2.2 h3.2)
      rw [← h2.1, ← h3.1]; exact h

theorem All2.imp_mem {α β : Type} {R S : α → β → Prop} {as : List α} {bs : List β} (h : All2 R as bs)
    (hi : ∀ a ∈ as, ∀ b ∈ bs, R a b → S a b) : All2 S as bs := by
  induction h with
  | nil => exact .nil
  | cons h _ ih =>
    exact .cons (hi _ (by simp) _ (by simp) h) (ih fun a ha b hb => hi a (by simp [ha]) b (by simp [hb]))

end Verif.Raster
