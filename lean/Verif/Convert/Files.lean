import Verif.Convert.PnmProps
import Verif.Convert.PdfProps
import Verif.Jpeg.Props
import Verif.Raster.Cut
import Verif.Tools.Bsplit

/-!
# The tools and their files: utils/bsplit.cpp, baselinify_main.cpp, ppm2pwg_main.cpp, pdf2printable_main.cpp, pwg2ppm_main.cpp; property C93

What the programs do is modelled elsewhere (Bsplit, Jpeg, Convert, Raster/Cut); here they run on files that change: the output may be the input. Files are
told apart by their names: links and different paths to one file are not modelled. A file that can be opened for writing takes all that is written
(C78 and C79 are about less room), and what a file contains can be read.
-/

namespace Verif.Convert

open Tools Tools.Spec Client Raster Pdf

/-! ## Model -/

/-- The files: what they contain (none: can not be opened for reading), whether they can be opened for writing, and the standard input. -/
structure Files where
  read : Bytes → Option Bytes
  writable : Bytes → Bool
  stdin : Bytes := []

/-- `InBinFile`, binfile.h 11-26 and `Bytestream(std::istream&)`: "-" is the standard input. -/
def Files.input (fs : Files) (name : Bytes) : Option Bytes := if name = ascii "-" then some fs.stdin else fs.read name

/-- An `std::ofstream` (binfile.h 60-71) that is opened, written to and closed: what the file contained before is gone; if it can not be opened, nothing happens.
"-" is the standard output. -/
def Files.store (fs : Files) (name data : Bytes) : Files :=
  if name ≠ ascii "-" ∧ fs.writable name = true then { fs with read := fun n => if n = name then some data else fs.read n } else fs

/-- How a program ends, what the files are then, and what it has written to the standard output. -/
structure Ran where
  out : Outcome Nat
  files : Files
  stdout : Bytes := []

/-- The output of a program gets its content. -/
def Ran.write (out : Outcome Nat) (fs : Files) (name data : Bytes) : Ran :=
  { out, files := fs.store name data, stdout := if name = ascii "-" then data else [] }

/-- The files as ppm2pwg and pdf2printable see them (Convert/Model.lean). -/
def Files.disk (fs : Files) : Disk := { read := fs.input, room := fun _ => none }

/-- ppm2pwg: the output is opened (line 163) after the input (156), but before anything is read. The file header (165) is in the buffer of the output
until it is full or closed. -/
def ppmRun (fs : Files) (args : List Bytes) : Ran :=
  match (ppmMain fs.disk args).file with
  | none => { out := (ppmMain fs.disk args).out, files := fs }
  | some (outFile, _) =>
    let opened := fs.store outFile []
    let r := ppmMain opened.disk args
    .write r.out fs outFile ((r.file.map (·.2)).getD [])

/-- pdf2printable: the output is opened (line 193) before poppler opens the input (`lib content antiAlias`, none: not there), which is the
standard input for "-" (pdf2printable.cpp 78-81). -/
def pdfRun (lum : Luminosity) (lib : Option Bytes → Bool → Library) (fs : Files) (args : List Bytes) : Ran :=
  let run (seen : Files) := pdfMain lum (fun name => lib (seen.input name)) seen.disk args
  match (run fs).file with
  | none => { out := (run fs).out, files := fs }
  | some (outFile, _) =>
    let r := run (fs.store outFile [])
    .write r.out fs outFile ((r.file.map (·.2)).getD [])

/-- bsplit: the output is opened when everything has been read. -/
def bsplitRun (fs : Files) (args : List Bytes) : Ran :=
  match bsplit args fs.input with
  | .ok (.said code) => { out := .ok code, files := fs }
  | .ok (.wrote name content) => .write (.ok 0) fs name content
  | .throws e => { out := .throws e, files := fs }
  | .ub => { out := .ub, files := fs }
  | .hang => { out := .hang, files := fs }

/-- `main`, baselinify_main.cpp 7-31: the output is opened before the input is read. An error of libjpeg ends the program with 1 (the output is closed
by `exit` or by the system: it is empty either way). -/
def baselinifyRun (lib : Jpeg.Library) (buffer : Bytes) (fs : Files) (args : List Bytes) : Ran :=
  match args with
  | [inFile, outFile] =>
    match fs.input inFile with
    | none => { out := .ok 1, files := fs }
    | some _ =>
      let opened := fs.store outFile []
      match Jpeg.baselinify lib buffer ((opened.input inFile).getD []) [] with
      | .ok (.written data) => .write (.ok 0) fs outFile data
      | .ok .exited => { out := .ok 1, files := opened }
      | .throws e => { out := .throws e, files := opened }
      | .ub => { out := .ub, files := opened }
      | .hang => { out := .hang, files := opened }
  | _ => { out := .ok 1, files := fs }

/-- `main`, pwg2ppm_main.cpp 6-70: the input is read before anything is written; a file that can not be opened is like an empty one. Here "-" is a name like others, for
input and output (names of outputs have a number at the end, so they are never just "-"). -/
def pwgRun (fs : Files) (args : List Bytes) : Ran :=
  match args with
  | [inFile, pre] =>
    let r := pwg2ppmRun pre ((fs.read inFile).getD [])
    { out := r.2, files := r.1.foldl (fun fs f => fs.store f.1 f.2) fs }
  | _ => { out := .ok 1, files := fs }

/-! ## Specification -/

namespace Spec

/-- No file but these is changed. -/
def OnlyChanges (before after : Files) (names : Bytes → Prop) : Prop := ∀ n, after.read n ≠ before.read n → names n

/-- The last word on a command line. -/
def LastWord (args : List Bytes) (n : Bytes) : Prop := args.getLast? = some n

/-- The file has this content afterwards; for "-", this has come out of the standard output. -/
def Wrote (r : Ran) (name data : Bytes) : Prop := if name = ascii "-" then r.stdout = data else r.files.read name = some data

end Spec

open Verif.Convert.Spec Client.Spec Raster.Spec

/-! ## Lemmas -/

theorem store_read {fs : Files} {name data n : Bytes} (h : (fs.store name data).read n ≠ fs.read n) : n = name := by
  unfold Files.store at h
  split at h
  · simp only at h
    split at h
    · assumption
    · exact absurd rfl h
  · exact absurd rfl h

theorem store_other {fs : Files} {name data n : Bytes} (h : n ≠ name) : (fs.store name data).read n = fs.read n := by
  apply Classical.byContradiction
  intro hc
  exact h (store_read hc)

theorem store_self {fs : Files} {name data : Bytes} (h : name ≠ ascii "-") (hw : fs.writable name = true) : (fs.store name data).read name = some data := by
  unfold Files.store
  rw [if_pos ⟨h, hw⟩]
  simp

theorem write_wrote {out : Outcome Nat} {fs : Files} {name data : Bytes} (h : name = ascii "-" ∨ fs.writable name = true) : Wrote (.write out fs name data) name data := by
  unfold Wrote Ran.write
  split
  · simp
  · rename_i hn
    exact store_self hn (h.resolve_left hn)

theorem store_input {fs : Files} {name data n : Bytes} (h : n ≠ name ∨ name = ascii "-" ∨ fs.writable name = false) : (fs.store name data).input n = fs.input n := by
  unfold Files.store
  split
  · rename_i hc
    unfold Files.input
    split
    · rfl
    · simp only
      rw [if_neg (h.resolve_right (by
        rintro (h | h)
        · exact hc.1 h
        · rw [hc.2] at h; cases h))]
  · rfl

theorem last_of_accounts {opts : List Opt} {poss : List Pos} {args : List Bytes} {uses : List Use} {inFile outFile : Bytes}
    (ha : Accounts opts poss args uses [inFile, outFile]) : LastWord args outFile := by
  unfold LastWord
  rw [ha.words]
  simp

/-- Two names, neither of which may be left out. -/
theorem two_names {opts : List Opt} {a b : Bytes} {args : List Bytes} (h : (getArgs opts [⟨a, false⟩, ⟨b, false⟩] args).success = true) :
    ∃ uses inFile outFile, Accounts opts [⟨a, false⟩, ⟨b, false⟩] args uses [inFile, outFile] ∧
      (getArgs opts [⟨a, false⟩, ⟨b, false⟩] args).positional = [inFile, outFile] := by
  obtain ⟨uses, pos, ha, _, hp⟩ := C45_sound h
  have h1 := ha.notMore
  have h2 := ha.enough 1 ⟨b, false⟩ rfl
  match pos, ha, hp, h1, h2 with
  | [], _, _, _, h2 => exact absurd (h2 (by simp)) (by simp)
  | [_], _, _, _, h2 => exact absurd (h2 (by simp)) (by simp)
  | [x, y], ha, hp, _, _ => exact ⟨uses, x, y, ha, hp⟩
  | _ :: _ :: _ :: _, _, _, h1, _ => simp at h1

theorem ppm_file {d : Disk} {args : List Bytes} {outFile data : Bytes} (h : (ppmMain d args).file = some (outFile, data)) : LastWord args outFile := by
  unfold ppmMain ppmWith at h
  simp only at h
  split at h
  · cases h
  · split at h
    · rename_i hs
      obtain ⟨uses, i, o, ha, hp⟩ := two_names hs
      have hp : (getArgs ppmOpts ppmPos args).positional = [i, o] := hp
      rw [hp] at h
      split at h
      · cases h
      · split at h
        · cases h
        · cases h; exact last_of_accounts ha
    · cases h

theorem pdf_file {lum : Luminosity} {lib : Bytes → Bool → Library} {d : Disk} {args : List Bytes} {outFile data : Bytes}
    (h : (pdfMain lum lib d args).file = some (outFile, data)) : LastWord args outFile := by
  unfold pdfMain at h
  simp only at h
  split at h
  · cases h
  · split at h
    · rename_i hs
      obtain ⟨uses, i, o, ha, hp⟩ := two_names hs
      have hp : (getArgs pdfOpts pdfPos args).positional = [i, o] := hp
      rw [hp] at h
      split at h
      · cases h
      · cases h; exact last_of_accounts ha
      · cases h
      · cases h
      · cases h
    · cases h

theorem bsplit_file {files : Bytes → Option Bytes} {args : List Bytes} {outFile data : Bytes} (h : bsplit args files = .ok (.wrote outFile data)) :
    LastWord args outFile := by
  unfold bsplit at h
  simp only at h
  split at h
  · cases h
  · split at h
    · cases h
    · rename_i hs
      obtain ⟨uses, i, o, ha, hp⟩ := two_names (a := ascii "input file") (b := ascii "output file") (show (getArgs bsplitOpts bsplitPos args).success = true by simpa using hs)
      have hp : (getArgs bsplitOpts bsplitPos args).positional = [i, o] := hp
      rw [hp] at h
      split at h
      · cases h
      · split at h
        · cases h
        · split at h
          all_goals
            obtain ⟨b, _, h⟩ := Outcome.bind_eq_ok.mp h
            cases h
            exact last_of_accounts ha

theorem pages_pre (page : Bytes → Outcome (PageOut × Bytes)) (hp : ∀ s x, page s = .ok x → x.2.length < s.length) (pre : Bytes) (n : Nat) (file : Bytes) :
    ∀ f ∈ (writePages page hp pre n file).1, pre <+: f.1 := by
  fun_induction writePages page hp pre n file with
  | case1 => intro f hf; cases hf
  | case2 n file h x hx r ih =>
    intro f hf
    rcases List.mem_cons.mp hf with rfl | hf
    · exact ⟨_, rfl⟩
    · exact ih f hf
  | case3 => intro f hf; cases hf
  | case4 => intro f hf; cases hf
  | case5 => intro f hf; cases hf

theorem run_pre (pre file : Bytes) : ∀ f ∈ (pwg2ppmRun pre file).1, pre <+: f.1 := by
  unfold pwg2ppmRun
  split
  · exact pages_pre _ _ _ _ _
  · split
    · split
      · intro f hf; cases hf
      · split
        · exact pages_pre _ _ _ _ _
        · intro f hf; cases hf
        · intro f hf; cases hf
        · intro f hf; cases hf
    · intro f hf; cases hf

theorem foldl_read {names : Bytes → Prop} : ∀ (l : List (Bytes × Bytes)) (fs : Files), (∀ f ∈ l, names f.1) →
    OnlyChanges fs (l.foldl (fun fs f => fs.store f.1 f.2) fs) names
  | [], _, _, _, hn => absurd rfl hn
  | f :: l, fs, h, n, hn => by
    by_cases hc : n = f.1
    · rw [hc]; exact h f List.mem_cons_self
    · rw [List.foldl_cons] at hn
      exact foldl_read l (fs.store f.1 f.2) (fun g hg => h g (List.mem_cons_of_mem _ hg)) n (by rwa [store_other hc])

/-! ## Theorems -/

/-- C93: of all files only the one that is named last on the command line can change; for pwg2ppm, only those whose names begin with what is given as prefix. -/
theorem C93_others (fs : Files) (args : List Bytes) :
    OnlyChanges fs (ppmRun fs args).files (LastWord args) ∧
    (∀ lum lib, OnlyChanges fs (pdfRun lum lib fs args).files (LastWord args)) ∧
    OnlyChanges fs (bsplitRun fs args).files (LastWord args) ∧
    (∀ lib buffer, OnlyChanges fs (baselinifyRun lib buffer fs args).files (LastWord args)) ∧
    OnlyChanges fs (pwgRun fs args).files (fun n => ∃ pre, LastWord args pre ∧ pre <+: n) := by
  refine ⟨?_, fun lum lib => ?_, ?_, fun lib buffer => ?_, ?_⟩
  · intro n hn
    unfold ppmRun at hn
    split at hn
    · exact absurd rfl hn
    · rename_i hf
      rw [store_read hn]
      exact ppm_file hf
  · intro n hn
    unfold pdfRun at hn
    simp only at hn
    split at hn
    · exact absurd rfl hn
    · rename_i hf
      rw [store_read hn]
      exact pdf_file hf
  · intro n hn
    unfold bsplitRun at hn
    split at hn
    · exact absurd rfl hn
    · rename_i hf
      rw [store_read hn]
      exact bsplit_file hf
    · exact absurd rfl hn
    · exact absurd rfl hn
    · exact absurd rfl hn
  · intro n hn
    unfold baselinifyRun at hn
    split at hn
    · split at hn
      · exact absurd rfl hn
      · simp only at hn
        split at hn
        all_goals
          rw [store_read hn]
          rfl
    · exact absurd rfl hn
  · intro n hn
    unfold pwgRun at hn
    split at hn
    · rename_i inFile pre
      exact ⟨pre, rfl, foldl_read _ _ (run_pre _ _) n hn⟩
    · exact absurd rfl hn

theorem ppm_same {fs : Files} {args : List Bytes} {uses : List Use} {inFile outFile : Bytes} (ha : Accounts ppmOpts ppmPos args uses [inFile, outFile])
    (hh : lastUse uses [ascii "-h", ascii "--help"] = none) (hne : inFile ≠ outFile ∨ outFile = ascii "-") {out : Outcome Nat} {data : Bytes}
    (h : ppmMain fs.disk args = { out := out, file := some (outFile, data) }) (hw : outFile = ascii "-" ∨ fs.writable outFile = true) :
    (ppmRun fs args).out = out ∧ Wrote (ppmRun fs args) outFile data := by
  have he : ppmMain (fs.store outFile []).disk args = ppmMain fs.disk args := by
    rw [ppm_main ha hh, ppm_main ha hh]
    have hr : (fs.store outFile []).disk.read inFile = fs.disk.read inFile := store_input (by rcases hne with h | h <;> simp [h])
    rw [hr]
    rfl
  have e : ppmRun fs args = .write out fs outFile data := by
    unfold ppmRun
    rw [h]
    simp only
    rw [he, h]
    rfl
  rw [e]
  exact ⟨rfl, write_wrote hw⟩

theorem pdf_same {lum : Luminosity} {lib : Option Bytes → Bool → Library} {fs : Files} {args : List Bytes} {uses : List Use} {inFile outFile : Bytes}
    (ha : Accounts pdfOpts pdfPos args uses [inFile, outFile])
    (hh : lastUse uses [ascii "-h", ascii "--help"] = none) (hne : inFile ≠ outFile ∨ outFile = ascii "-") {out : Outcome Nat} {data : Bytes}
    (h : pdfMain lum (fun name => lib (fs.input name)) fs.disk args = { out := out, file := some (outFile, data) })
    (hw : outFile = ascii "-" ∨ fs.writable outFile = true) :
    (pdfRun lum lib fs args).out = out ∧ Wrote (pdfRun lum lib fs args) outFile data := by
  have he : pdfMain lum (fun name => lib ((fs.store outFile []).input name)) (fs.store outFile []).disk args =
      pdfMain lum (fun name => lib (fs.input name)) fs.disk args := by
    rw [pdf_main ha hh, pdf_main ha hh]
    have hr : (fs.store outFile []).input inFile = fs.input inFile := store_input (by rcases hne with h | h <;> simp [h])
    simp only [hr]
    rfl
  have e : pdfRun lum lib fs args = .write out fs outFile data := by
    unfold pdfRun
    simp only [h, he, Option.map_some, Option.getD_some]
  rw [e]
  exact ⟨rfl, write_wrote hw⟩

/-- C93, ppm2pwg: with an output that is not the input C79 holds of the files. Missing: as for C79, and an output that is the input (`C93_ppm2pwg_false`). -/
theorem C93_ppm2pwg_partial (fs : Files) {args : List Bytes} {uses : List Use} {inFile outFile : Bytes} (ha : Accounts ppmOpts ppmPos args uses [inFile, outFile])
    (hh : lastUse uses [ascii "-h", ascii "--help"] = none) (hr : ¬ PnmRefused uses outFile) {gs : List PnmPage} (hgs : gs ≠ [])
    (hg : ∀ g ∈ gs, g.Wf ∧ g.last = 10 ∧ g.pixels.head? ≠ some 35) {more : Bytes} (hm : more = [] ∨ NoPicture more)
    (hread : fs.input inFile = some ((gs.map PnmPage.bytes).flatten ++ more)) (hne : inFile ≠ outFile ∨ outFile = ascii "-")
    (hw : outFile = ascii "-" ∨ fs.writable outFile = true) :
    ∃ pt p count, (∀ px res : Nat, 0 < res → AboutWhole (pt px res) ((px : Rat) / res * 72)) ∧ PnmJob uses outFile p ∧
      Counted (2 ^ 31) 0 (word uses [ascii "--num-pages"]) count ∧
      (0 < p.hwResW → 0 < p.hwResH → (p.format = .URF → p.hwResW = p.hwResH) →
        (∀ g ∈ gs, Raster.Spec.Fits (g.params pt p) ∧ (g.kind = .pbm → p.format = .PWG)) →
        ∃ file, (ppmRun fs args).out = .ok (if more = [] then 0 else 1) ∧ Wrote (ppmRun fs args) outFile file ∧
          (p.format = .PWG → Raster.Spec.PwgDocument (pagesOf pt p 1 gs) file ∧
            ((∀ g ∈ gs, g.kind ≠ .pgm16 ∧ g.kind ≠ .ppm16) → ∃ outs, readRaster file = .ok (.pwg outs) ∧ All2 ShowsPwg (pagesOf pt p 1 gs) outs)) ∧
          (p.format = .URF → Raster.Spec.UrfDocument count (pagesOf pt p 1 gs) file ∧
            ∃ outs, readRaster file = .ok (.urf count outs) ∧ All2 ShowsUrf (pagesOf pt p 1 gs) outs)) := by
  obtain ⟨pt, p, count, h1, h2, h3, h4⟩ := C79_converts_partial fs.disk ha hh hr hgs hg hm hread rfl
  refine ⟨pt, p, count, h1, h2, h3, fun a b c d => ?_⟩
  obtain ⟨file, h5, h6⟩ := h4 a b c d
  obtain ⟨h7, h8⟩ := ppm_same ha hh hne h5 hw
  exact ⟨file, h7, h8, h6⟩

/-- C93, pdf2printable: with an output that is not the input C78 holds of the files. Missing: as for C78, and an output that is the input
(`C93_pdf2printable_false`). -/
theorem C93_pdf2printable_partial {lum : Luminosity} (hl : Pdf.Spec.Sums lum.plus) (lib : Option Bytes → Bool → Library) (fs : Files) {args : List Bytes} {uses : List Use}
    {inFile outFile : Bytes} (ha : Accounts pdfOpts pdfPos args uses [inFile, outFile]) (hh : lastUse uses [ascii "-h", ascii "--help"] = none)
    (hlarge : ¬ PdfTooLarge uses) (hr : ¬ PdfRefused uses outFile)
    {doc : Library} (hdoc : doc = lib (fs.input inFile) (lastUse uses [ascii "-aa", ascii "--antialias"]).isSome)
    {pages : Nat} (hp : doc.pages = some pages) (hfail : ∀ d, doc.failed d = false) (hdraw : ∀ n sc img, (doc.draw n sc img).length = img.length)
    (hne : inFile ≠ outFile ∨ outFile = ascii "-") (hw : outFile = ascii "-" ∨ fs.writable outFile = true) :
    ∃ paper p seq, PdfJob uses outFile paper p ∧ p.pageSequence pages = .ok seq ∧
      (Raster.Spec.Fits p → p.heightPx ≤ 38347922 → seq.length < 2 ^ 32 → (p.format = .PWG ∨ (p.format = .URF ∧ p.hwResW = p.hwResH)) →
        ∃ bmps outs file, (pdfRun lum lib fs args).out = .ok 0 ∧ Wrote (pdfRun lum lib fs args) outFile file ∧
          All2 (fun n bmp => copyRasterBuffer lum p (Pdf.Spec.picture doc paper p n) = .ok bmp) seq bmps ∧
          (p.format = .PWG → readRaster file = .ok (.pwg outs) ∧ All2 ShowsPwg (numbered p 0 bmps) outs ∧ Raster.Spec.PwgDocument (numbered p 0 bmps) file) ∧
          (p.format = .URF → readRaster file = .ok (.urf seq.length outs) ∧ All2 ShowsUrf (numbered p 0 bmps) outs ∧ Raster.Spec.UrfDocument seq.length (numbered p 0 bmps) file)) := by
  obtain ⟨paper, p, seq, h1, h2, h3⟩ := C78_document_partial hl (fun name => lib (fs.input name)) fs.disk ha hh hlarge hr hdoc hp hfail hdraw rfl
  refine ⟨paper, p, seq, h1, h2, fun a b c d => ?_⟩
  obtain ⟨bmps, outs, file, h4, h5⟩ := h3 a b c d
  obtain ⟨h6, h7⟩ := pdf_same ha hh hne h4 hw
  exact ⟨bmps, outs, file, h6, h7, h5⟩

theorem no_header (pt : Nat → Nat → Nat) (p : Params) : readPnm pt p 1 [] = ([], .refused) := by
  have h : pnmHeader pt p [] = .error .refused := by
    unfold pnmHeader
    have h6 : ascii "P6" ≠ [] := by decide
    have h5 : ascii "P5" ≠ [] := by decide
    have h4 : ascii "P4" ≠ [] := by decide
    simp [readToken, pnmMode, h6, h5, h4]
  unfold readPnm
  split
  · rename_i e he
    rw [h] at he; cases he; rfl
  · rename_i he
    rw [h] at he; cases he

/-- C93 is false of ppm2pwg when the output is the input: whatever the file contained, the program ends with 1 and leaves a file header at most. (The full claim would be
that the file is converted or stays as it is.) -/
theorem C93_ppm2pwg_false (fs : Files) {args : List Bytes} {uses : List Use} {name data : Bytes} (ha : Accounts ppmOpts ppmPos args uses [name, name])
    (hh : lastUse uses [ascii "-h", ascii "--help"] = none) (hr : ¬ PnmRefused uses name) (hn : name ≠ ascii "-") (hread : fs.read name = some data)
    (hw : fs.writable name = true) : (ppmRun fs args).out = .ok 1 ∧ ∃ hdr, (ppmRun fs args).files.read name = some hdr ∧ hdr.length ≤ 12 := by
  have h1 : fs.disk.read name = some data := by
    show fs.input name = _
    unfold Files.input; rw [if_neg hn, hread]
  have h2 : (fs.store name []).disk.read name = some [] := by
    show (fs.store name []).input name = _
    unfold Files.input; rw [if_neg hn, store_self hn hw]
  have hf : ∃ x, (ppmMain fs.disk args).file = some (name, x) := by
    rw [ppm_main ha hh, if_neg (fun h => hr ((refused_iff ha.uses name).mp h)), h1]
    exact ⟨_, rfl⟩
  have ho : ∃ hdr, ppmMain (fs.store name []).disk args = { out := .ok 1, file := some (name, hdr) } ∧ hdr.length ≤ 12 := by
    rw [ppm_main ha hh, if_neg (fun h => hr ((refused_iff ha.uses name).mp h)), h2]
    simp only [no_header, encodeUntil, List.append_nil, Files.disk, Disk.kept]
    refine ⟨_, rfl, ?_⟩
    split
    · simp [urfFileHdr]; decide
    · simp [pwgFileHdr]; decide
  obtain ⟨x, hx⟩ := hf
  obtain ⟨hdr, hm, hl⟩ := ho
  unfold ppmRun
  rw [hx]
  simp only [hm]
  exact ⟨rfl, hdr, store_self hn hw, hl⟩

/-- C93 is false of pdf2printable when the output is the input: if poppler does not take an empty file for a document, then whatever the file contained, the program ends
with 1 and the file is empty. -/
theorem C93_pdf2printable_false (lum : Luminosity) (lib : Option Bytes → Bool → Library) (hlib : ∀ aa, (lib (some []) aa).pages = none)
    (fs : Files) {args : List Bytes} {uses : List Use} {name : Bytes} (ha : Accounts pdfOpts pdfPos args uses [name, name])
    (hh : lastUse uses [ascii "-h", ascii "--help"] = none)
    (hlarge : ¬ PdfTooLarge uses) (hr : ¬ PdfRefused uses name) (hn : name ≠ ascii "-")
    (hw : fs.writable name = true) : (pdfRun lum lib fs args).out = .ok 1 ∧ (pdfRun lum lib fs args).files.read name = some [] := by
  have hf : ∃ x, (pdfMain lum (fun name => lib (fs.input name)) fs.disk args).file = some (name, x) := by
    rcases C78_converts_partial lum (fun name => lib (fs.input name)) fs.disk ha hh with ⟨h, _⟩ | ⟨_, ⟨h, _⟩ | ⟨_, paper, p, _, h⟩⟩
    · exact absurd h hlarge
    · exact absurd h hr
    · exact ⟨_, (h _ rfl).1⟩
  have hm : (pdfMain lum (fun n => lib ((fs.store name []).input n)) (fs.store name []).disk args).out = .ok 1 ∧
      (pdfMain lum (fun n => lib ((fs.store name []).input n)) (fs.store name []).disk args).file = some (name, []) := by
    rcases C78_converts_partial lum (fun n => lib ((fs.store name []).input n)) (fs.store name []).disk ha hh with ⟨h, _⟩ | ⟨_, ⟨h, _⟩ | ⟨_, paper, p, _, h⟩⟩
    · exact absurd h hlarge
    · exact absurd h hr
    · obtain ⟨h1, _, h2, _⟩ := h _ rfl
      have hi : (fs.store name []).input name = some [] := by unfold Files.input; rw [if_neg hn, store_self hn hw]
      simp only [hi] at h1 h2
      unfold pdfToPrintable at h1 h2
      rw [hlib] at h1 h2
      split at h1
      · rw [if_pos (by assumption)] at h2
        exact ⟨h2 _ rfl, h1⟩
      · rw [if_neg (by assumption)] at h2
        exact ⟨h2 _ rfl, h1⟩
  obtain ⟨x, hx⟩ := hf
  obtain ⟨h1, h2⟩ := hm
  unfold pdfRun
  simp only [hx, h1, h2]
  exact ⟨rfl, store_self hn hw⟩

/-- C93, bsplit: the output gets the asked for part of what the input contained, also if they are the same file. Missing: as for C46, and an output that can not be
made (`C93_unwritable_false`). -/
theorem C93_bsplit_partial (fs : Files) {inName outName : Bytes} (hin : ∀ op ∈ bsplitOpts, inName ∉ op.names) {bts : Bytes}
    (hf : fs.input inName = some bts) (hs : bts.length < 2 ^ 31) {k : Nat} (h1 : 1 ≤ k) (hk : k ≤ bts.length)
    (hw : outName = ascii "-" ∨ fs.writable outName = true) :
    (∀ word ∈ [(ascii "--head", dec k, bts.take k), (ascii "--head", ascii "-" ++ dec k, bts.take (bts.length - k)),
        (ascii "--tail", dec k, bts.drop (bts.length - k)), (ascii "--tail", ascii "-" ++ dec k, bts.drop k)],
      (bsplitRun fs [word.1, word.2.1, inName, outName]).out = .ok 0 ∧ Wrote (bsplitRun fs [word.1, word.2.1, inName, outName]) outName word.2.2) := by
  have key : ∀ args part, bsplit args fs.input = .ok (.wrote outName part) → (bsplitRun fs args).out = .ok 0 ∧ Wrote (bsplitRun fs args) outName part := by
    intro args part h
    unfold bsplitRun
    rw [h]
    exact ⟨rfl, write_wrote hw⟩
  have hneg : ascii "-" ++ dec k = 45 :: dec k := rfl
  intro word hword
  simp only [List.mem_cons, List.not_mem_nil, or_false] at hword
  rcases hword with rfl | rfl | rfl | rfl <;> apply key <;> simp only [hneg]
  · rw [bsplit_head (stoi_dec (by omega)) hin hf, head_take hk (by omega)]; rfl
  · rw [bsplit_head (stoi_neg (by omega)) hin hf, head_drop h1 hk (by omega)]; rfl
  · rw [bsplit_tail (stoi_dec (by omega)) hin hf, tail_nat hk (by omega)]; rfl
  · rw [bsplit_tail (stoi_neg (by omega)) hin hf, tail_neg h1 hk (by omega)]; rfl

/-- C93, an input that can not be opened: ppm2pwg, bsplit and baselinify end with 1, and no file is changed. -/
theorem C93_unopened (fs : Files) {inFile outFile : Bytes} (hread : fs.input inFile = none) :
    (∀ args uses, Accounts ppmOpts ppmPos args uses [inFile, outFile] → lastUse uses [ascii "-h", ascii "--help"] = none →
      (ppmRun fs args).out = .ok 1 ∧ (ppmRun fs args).files = fs ∧ (ppmRun fs args).stdout = []) ∧
    (∀ args uses, Accounts bsplitOpts bsplitPos args uses [inFile, outFile] → lastUse uses [ascii "-h", ascii "--help"] = none →
      (bsplitRun fs args).out = .ok 1 ∧ (bsplitRun fs args).files = fs ∧ (bsplitRun fs args).stdout = []) ∧
    (∀ lib buffer, (baselinifyRun lib buffer fs [inFile, outFile]).out = .ok 1 ∧ (baselinifyRun lib buffer fs [inFile, outFile]).files = fs ∧
      (baselinifyRun lib buffer fs [inFile, outFile]).stdout = []) := by
  refine ⟨fun args uses ha hh => ?_, fun args uses ha hh => ?_, fun lib buffer => ?_⟩
  · have h := C79_refuses fs.disk ha hh (.inr hread)
    unfold ppmRun
    rw [h]
    exact ⟨rfl, rfl, rfl⟩
  · obtain ⟨h1, h2, h3⟩ := C45_complete ha
    have h0 : ((getArgs bsplitOpts bsplitPos args).vals 0).isSome = false := by
      rw [h2, switch_eq (disjoint_of (by decide +kernel)) ha.uses (i := 0) (names := [ascii "-h", ascii "--help"]) rfl, hh]; rfl
    have hb : bsplit args fs.input = .ok (.said 1) := by
      unfold bsplit
      simp only [h0, h1, h3, Bool.false_eq_true, Bool.true_eq_false, if_false, List.headD_cons, hread]
    unfold bsplitRun
    rw [hb]
    exact ⟨rfl, rfl, rfl⟩
  · unfold baselinifyRun
    simp only [hread]
    exact ⟨trivial, trivial, trivial⟩

/-- C93: with other than two words baselinify and pwg2ppm end with 1, and no file is changed. -/
theorem C93_words (fs : Files) {args : List Bytes} (h : args.length ≠ 2) :
    (∀ lib buffer, baselinifyRun lib buffer fs args = { out := .ok 1, files := fs }) ∧ pwgRun fs args = { out := .ok 1, files := fs } := by
  match args, h with
  | [], _ => exact ⟨fun _ _ => rfl, rfl⟩
  | [a], _ => exact ⟨fun _ _ => rfl, rfl⟩
  | [a, b], h => exact absurd rfl h
  | a :: b :: c :: l, _ => exact ⟨fun _ _ => rfl, rfl⟩

/-- C93, baselinify: with an output that is not the input, the picture is in the output. Missing: as for C80, an output that is the input
(`C93_baselinify_false`), and one that can not be made (`C93_unwritable_false`). -/
theorem C93_baselinify_partial {lib : Jpeg.Library} (hl : Jpeg.Spec.Sound lib) {buffer : Bytes} (hb : buffer ≠ []) (fs : Files) {inFile outFile data : Bytes}
    {pic : Jpeg.Picture} (hread : fs.input inFile = some data) (hr : Jpeg.Spec.Reads lib data pic) (hne : inFile ≠ outFile ∨ outFile = ascii "-")
    (hw : outFile = ascii "-" ∨ fs.writable outFile = true) :
    ∃ bytes pic', (baselinifyRun lib buffer fs [inFile, outFile]).out = .ok 0 ∧ Wrote (baselinifyRun lib buffer fs [inFile, outFile]) outFile bytes ∧
      Jpeg.Spec.Reads lib bytes pic' ∧ pic'.critical = pic.critical ∧ pic'.ids = pic.ids ∧ pic'.coefs = pic.coefs := by
  obtain ⟨bytes, pic', h1, h2, h3, h4, h5, _⟩ := Jpeg.C80_picture_partial hl hb hr []
  have hi : (fs.store outFile []).input inFile = some data := by
    rw [store_input (by rcases hne with h | h <;> simp [h]), hread]
  refine ⟨bytes, pic', ?_, ?_, h2, h3, h4, h5⟩
  all_goals
    unfold baselinifyRun
    simp only [hread, hi, Option.getD_some, h1, List.nil_append]
  · rfl
  · exact write_wrote hw

/-- C93 is false of baselinify when the output is the input: whatever the file contained, it is emptied, and then libjpeg (which takes no picture from nothing) reads beyond
the end of the empty input. -/
theorem C93_baselinify_false (lib : Jpeg.Library) (hlib : Jpeg.Spec.means lib.reader [] = none) (buffer : Bytes) (fs : Files) {name data : Bytes} (hn : name ≠ ascii "-")
    (hread : fs.read name = some data) (hw : fs.writable name = true) :
    (baselinifyRun lib buffer fs [name, name]).out = .ub ∧ (baselinifyRun lib buffer fs [name, name]).files.read name = some [] := by
  have h1 : fs.input name = some data := by unfold Files.input; rw [if_neg hn, hread]
  have h2 : (fs.store name []).input name = some [] := by unfold Files.input; rw [if_neg hn, store_self hn hw]
  have h3 : Jpeg.baselinify lib buffer [] [] = .ub := by
    unfold Jpeg.baselinify
    rw [((Jpeg.C80_source lib.reader []).2).mpr hlib]
  unfold baselinifyRun
  simp only [h1, h2, Option.getD_some, h3]
  exact ⟨trivial, store_self hn hw⟩

/-- C93 is false of an output that can not be made: bsplit and baselinify end with 0 and no file has changed. (The full claim would be that 0 means that the output was
written. For pdf2printable and ppm2pwg see `C78_room_false` and `C79_room_false`.) -/
theorem C93_unwritable_false (fs : Files) {outName : Bytes} (hn : outName ≠ ascii "-") (hw : fs.writable outName = false) :
    (∀ inName bts k, (∀ op ∈ bsplitOpts, inName ∉ op.names) → fs.input inName = some bts → 1 ≤ k → k ≤ bts.length → bts.length < 2 ^ 31 →
      (bsplitRun fs [ascii "--head", dec k, inName, outName]).out = .ok 0 ∧ (bsplitRun fs [ascii "--head", dec k, inName, outName]).files = fs ∧
        (bsplitRun fs [ascii "--head", dec k, inName, outName]).stdout = []) ∧
    (∀ lib buffer inFile data pic, Jpeg.Spec.Sound lib → buffer ≠ [] → fs.input inFile = some data → Jpeg.Spec.Reads lib data pic →
      (baselinifyRun lib buffer fs [inFile, outName]).out = .ok 0 ∧ (baselinifyRun lib buffer fs [inFile, outName]).files = fs ∧
        (baselinifyRun lib buffer fs [inFile, outName]).stdout = []) := by
  have hst : ∀ data, fs.store outName data = fs := by intro data; unfold Files.store; rw [if_neg (by simp [hw])]
  constructor
  · intro inName bts k hin hf h1 hk hs
    unfold bsplitRun
    rw [bsplit_head (stoi_dec (by omega)) hin hf, head_take hk (by omega)]
    exact ⟨rfl, hst _, if_neg hn⟩
  · intro lib buffer inFile data pic hl hb hread hr
    obtain ⟨bytes, pic', h1, _⟩ := Jpeg.C80_picture_partial hl hb hr []
    unfold baselinifyRun
    simp only [hread, hst, Option.getD_some, h1]
    exact ⟨rfl, hst _, if_neg hn⟩

theorem picture_name {pre : Bytes} {n : Nat} {pages : List PageOut} {f : Bytes × Bytes} (h : f ∈ pictureFiles pre n pages) :
    ∃ k rest, n ≤ k ∧ f.1 = pre ++ (dec k ++ 46 :: rest) := by
  induction pages generalizing n with
  | nil => cases h
  | cons o os ih =>
    unfold pictureFiles at h
    rcases List.mem_cons.mp h with rfl | h
    · have : ∃ rest, (writePpm o).1 = 46 :: rest := by
        unfold writePpm
        simp only
        split
        · exact ⟨_, rfl⟩
        · split <;> exact ⟨_, rfl⟩
      obtain ⟨rest, hr⟩ := this
      exact ⟨n, rest, Nat.le_refl _, by rw [hr]⟩
    · obtain ⟨k, rest, hk, he⟩ := ih h
      exact ⟨k, rest, by omega, he⟩

theorem number_of_name {pre : Bytes} {k j : Nat} {r r' : Bytes} (h : pre ++ (dec k ++ 46 :: r) = pre ++ (dec j ++ 46 :: r')) : k = j := by
  have h := List.append_cancel_left h
  have ht : ∀ n (x : Bytes), (dec n ++ 46 :: x).takeWhile isDigit = dec n := by
    intro n x
    rw [List.takeWhile_append_of_pos (dec_digits n), List.takeWhile_cons_of_neg (by decide), List.append_nil]
  have h := congrArg (List.takeWhile isDigit) h
  rw [ht, ht] at h
  rw [← digitsVal_dec k, h, digitsVal_dec]

theorem picture_names (pre : Bytes) (n : Nat) (pages : List PageOut) : ((pictureFiles pre n pages).map (·.1)).Nodup := by
  induction pages generalizing n with
  | nil => exact .nil
  | cons o os ih =>
    unfold pictureFiles
    rw [List.map_cons, List.nodup_cons]
    refine ⟨?_, ih (n + 1)⟩
    intro hm
    obtain ⟨f, hf, he⟩ := List.mem_map.mp hm
    obtain ⟨k, r, hk, hn⟩ := picture_name hf
    obtain ⟨k', r', _, hn'⟩ := picture_name (pre := pre) (n := n) (pages := [o]) (f := (pre ++ (dec n ++ (writePpm o).1), (writePpm o).2)) (by
      unfold pictureFiles; exact List.mem_cons_self)
    have : (writePpm o).1 = 46 :: (writePpm o).1.tail := by
      unfold writePpm
      simp only
      split
      · rfl
      · split <;> rfl
    rw [hn, this] at he
    have := number_of_name he
    omega

theorem foldl_stored : ∀ (l : List (Bytes × Bytes)) (fs : Files), (l.map (·.1)).Nodup → (∀ f ∈ l, f.1 ≠ ascii "-" ∧ fs.writable f.1 = true) →
    ∀ f ∈ l, (l.foldl (fun fs f => fs.store f.1 f.2) fs).read f.1 = some f.2
  | [], _, _, _, _, h => nomatch h
  | g :: l, fs, hd, hw, f, hf => by
    rw [List.map_cons, List.nodup_cons] at hd
    have hw' : ∀ n, (fs.store g.1 g.2).writable n = fs.writable n := by intro n; unfold Files.store; split <;> rfl
    rw [List.foldl_cons]
    rcases List.mem_cons.mp hf with rfl | hm
    · have : (l.foldl (fun fs f => fs.store f.1 f.2) (fs.store f.1 f.2)).read f.1 = (fs.store f.1 f.2).read f.1 := by
        apply Classical.byContradiction
        intro hc
        exact hd.1 (foldl_read (names := fun n => n ∈ l.map (·.1)) l _ (fun g hg => List.mem_map_of_mem hg) f.1 hc)
      rw [this]
      exact store_self (hw f List.mem_cons_self).1 (hw f List.mem_cons_self).2
    · exact foldl_stored l _ hd.2 (fun h hh => ⟨(hw h (List.mem_cons_of_mem _ hh)).1, by rw [hw']; exact (hw h (List.mem_cons_of_mem _ hh)).2⟩) f hm

/-- C93, pwg2ppm: all the pictures of the input (C61, C81 and C87 say which) are in their files in the end, each in its own, also if the input is one of them. -/
theorem C93_pwg2ppm (fs : Files) {inFile pre file : Bytes} {pics : List (Bytes × Bytes)} (hread : fs.read inFile = some file)
    (h : pwg2ppm pre file = .ok (some pics)) (hw : ∀ f ∈ pics, fs.writable f.1 = true) :
    (pwgRun fs [inFile, pre]).out = .ok 0 ∧ (pics.map (·.1)).Nodup ∧ ∀ f ∈ pics, (pwgRun fs [inFile, pre]).files.read f.1 = some f.2 := by
  have hp : ∃ pages, pics = pictureFiles pre 1 pages := by
    unfold pwg2ppm at h
    obtain ⟨r, _, h⟩ := Outcome.bind_eq_ok.mp h
    split at h <;> cases h <;> exact ⟨_, rfl⟩
  obtain ⟨pages, rfl⟩ := hp
  have hrun := (C81_complete pre file (pictureFiles pre 1 pages)).mpr h
  unfold pwgRun
  simp only [hread, Option.getD_some, hrun]
  refine ⟨trivial, picture_names pre 1 pages, foldl_stored _ _ (picture_names pre 1 pages) fun f hf => ⟨?_, hw f hf⟩⟩
  obtain ⟨k, rest, _, he⟩ := picture_name hf
  rw [he]
  intro hc
  have hl := congrArg List.length hc
  have : 0 < (dec k).length := List.length_pos_iff.mpr (Tools.dec_ne_nil k)
  simp only [List.length_append, List.length_cons, ascii] at hl
  have : (ascii "-").length = 1 := rfl
  simp only [ascii] at this
  omega

/-! ## Examples -/

/-- Files `a` and `b`, and nothing else. -/
def exFiles (a b : Bytes) : Files :=
  { read := fun n => if n = ascii "a" then some a else if n = ascii "b" then some b else none, writable := fun n => n != ascii "/dev/x" }

theorem ex_accounts : Accounts ppmOpts ppmPos [ascii "a", ascii "a"] [] [ascii "a", ascii "a"] := by
  refine ⟨rfl, by simp, ?_, ?_, Nat.le_refl 2⟩
  · intro a ha; cases ha; decide +kernel
  · intro j p hp hj
    match j, hj, hp with
    | j + 2, _, hp => simp [ppmPos] at hp

/-- The hypotheses of `C93_ppm2pwg_false` are met. -/
example : (ppmRun (exFiles oneLine [7]) [ascii "a", ascii "a"]).out = .ok 1 :=
  (C93_ppm2pwg_false (exFiles oneLine [7]) ex_accounts rfl (fun h => by
    have := (refused_iff (by simp) _).mpr h
    revert this
    decide +kernel) (by decide) (data := oneLine) (by decide +kernel) (by decide)).1

/-- there is no file `z` -/
example : (baselinifyRun Jpeg.toy [0] (exFiles oneLine [7]) [ascii "z", ascii "b"]).out = .ok 1 :=
  ((C93_unopened (exFiles oneLine [7]) (inFile := ascii "z") (outFile := ascii "b") (by decide +kernel)).2.2 Jpeg.toy [0]).1

/-- One gray picture becomes a page in another file; in place it is lost; `b` stays as it is. -/
example :
    (ppmRun (exFiles oneLine [7]) [ascii "a", ascii "c"]).out = .ok 0 ∧
    (ppmRun (exFiles oneLine [7]) [ascii "a", ascii "c"]).files.read (ascii "a") = some oneLine ∧
    (ppmRun (exFiles oneLine [7]) [ascii "a", ascii "a"]).out = .ok 1 ∧
    (ppmRun (exFiles oneLine [7]) [ascii "a", ascii "a"]).files.read (ascii "a") = some (ascii "RaS2") ∧
    (ppmRun (exFiles oneLine [7]) [ascii "a", ascii "a"]).files.read (ascii "b") = some [7] := by decide +kernel

example : (bsplitRun (exFiles [1, 2, 3] [7]) [ascii "--tail", ascii "-1", ascii "a", ascii "a"]).out = .ok 0 ∧
    (bsplitRun (exFiles [1, 2, 3] [7]) [ascii "--tail", ascii "-1", ascii "a", ascii "a"]).files.read (ascii "a") = some [2, 3] ∧
    (bsplitRun (exFiles [1, 2, 3] [7]) [ascii "--tail", ascii "-1", ascii "a", ascii "-"]).stdout = [2, 3] := by decide +kernel

example : Jpeg.Spec.means Jpeg.toy.reader [] = none ∧
    (baselinifyRun Jpeg.toy [0] (exFiles [255, 216, 0, 217] []) [ascii "a", ascii "b"]).out = .ok 0 ∧
    (baselinifyRun Jpeg.toy [0] (exFiles [255, 216, 0, 217] []) [ascii "a", ascii "b"]).files.read (ascii "b") = some [255, 216, 1, 217] ∧
    (baselinifyRun Jpeg.toy [0] (exFiles [255, 216, 0, 217] []) [ascii "a", ascii "a"]).files.read (ascii "a") = some [] ∧
    (baselinifyRun Jpeg.toy [0] (exFiles [255, 216, 0, 217] []) [ascii "a", ascii "/dev/x"]).out = .ok 0 ∧
    (baselinifyRun Jpeg.toy [0] (exFiles [255, 216, 0, 217] []) [ascii "a", ascii "/dev/x"]).files.read (ascii "/dev/x") = none := by decide +kernel

/-- poppler does not take an empty file -/
def exPoppler (content : Option Bytes) (_ : Bool) : Library := if content = some [] then { exLibrary with pages := none } else exLibrary

example : (∀ aa, (exPoppler (some []) aa).pages = none) ∧
    (pdfRun codeLuminosity exPoppler (exFiles [1] [7]) [ascii "a", ascii "c"]).out = .ok 0 ∧
    (pdfRun codeLuminosity exPoppler (exFiles [1] [7]) [ascii "a", ascii "c"]).files.read (ascii "c") = some [1, 1, 1, 3] ∧
    (pdfRun codeLuminosity exPoppler (exFiles [1] [7]) [ascii "a", ascii "a"]).out = .ok 1 ∧
    (pdfRun codeLuminosity exPoppler (exFiles [1] [7]) [ascii "a", ascii "a"]).files.read (ascii "a") = some [] := by decide +kernel

end Verif.Convert
