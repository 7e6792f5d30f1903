import Verif.Convert.Model
import Verif.Client.ArgsProps
import Verif.Params.SizeProps
import Verif.Pdf.Props
import Verif.Discovery.Answers

/-!
# Property C78: what a command line of pdf2printable converts, and to what
-/

namespace Verif.Convert

open Tools Tools.Spec Client Client.Spec Raster Pdf
open Verif.Spec (lengthInInches AboutFloor Clean)
open Printer (stoi_intText)
open Printer.Spec (intText)

/-! ## Specification -/

namespace Spec

/-- The value that a word stands for, by a table; without a word it is `dflt`. -/
def Named {α : Type} (table : List (String × α)) (dflt : α) (w : Option Bytes) (a : α) : Prop :=
  match w with
  | none => a = dflt
  | some w => ∃ s, w = ascii s ∧ (s, a) ∈ table

/-- `n` is the number below `bound` that a word is the decimal form of (if it is); without a word it is `dflt`. -/
def Counted (bound dflt : Nat) (w : Option Bytes) (n : Nat) : Prop :=
  (w = none → n = dflt) ∧ ∀ k, k < bound → w = some (dec k) → n = k

/-- The resolution of an axis: the option of its own comes first, then that for both. -/
def Resolution (own both : Option Bytes) (n : Nat) : Prop :=
  (∀ k, k < 2 ^ 31 → own = some (dec k) → n = k) ∧ (own = none → Counted (2 ^ 31) 300 both n)

/-- The back side transforms, by name -/
def backs : List (String × BackXform) := [("rotate", .Rotated), ("flip", .Flipped), ("manual-tumble", .ManualTumble)]

/-- The qualities, by name -/
def qualities : List (String × Quality) := [("draft", .DraftQuality), ("normal", .NormalQuality), ("high", .HighQuality)]

/-- The media positions of PWG 5102.4, by name -/
def positions : List (String × Nat) :=
  [("auto", 0), ("main", 1), ("alternate", 2), ("large-capacity", 3), ("manual", 4), ("envelope", 5), ("disc", 6), ("photo", 7), ("hagaki", 8),
   ("main-roll", 9), ("alternate-roll", 10), ("top", 11), ("middle", 12), ("bottom", 13), ("side", 14), ("left", 15), ("right", 16), ("center", 17),
   ("rear", 18), ("by-pass-tray", 19), ("tray-1", 20), ("tray-2", 21), ("tray-3", 22), ("tray-4", 23), ("tray-5", 24), ("tray-6", 25), ("tray-7", 26),
   ("tray-8", 27), ("tray-9", 28), ("tray-10", 29), ("tray-11", 30), ("tray-12", 31), ("tray-13", 32), ("tray-14", 33), ("tray-15", 34),
   ("tray-16", 35), ("tray-17", 36), ("tray-18", 37), ("tray-19", 38), ("tray-20", 39), ("roll-1", 40), ("roll-2", 41), ("roll-3", 42), ("roll-4", 43),
   ("roll-5", 44), ("roll-6", 45), ("roll-7", 46), ("roll-8", 47), ("roll-9", 48), ("roll-10", 49)]

/-- What the options that both tools have say. -/
structure Common (uses : List Use) (p : Params) : Prop where
  resW : Resolution (word uses [ascii "-rx", ascii "--resolution-x"]) (word uses [ascii "-r", ascii "--resolution"]) p.hwResW
  resH : Resolution (word uses [ascii "-ry", ascii "--resolution-y"]) (word uses [ascii "-r", ascii "--resolution"]) p.hwResH
  duplex : p.duplexMode = if lastUse uses [ascii "-t", ascii "--tumble"] ≠ none then .TwoSidedShortEdge
    else if lastUse uses [ascii "-d", ascii "--duplex"] ≠ none then .TwoSidedLongEdge else .OneSided
  back : Named backs .Normal (word uses [ascii "-b", ascii "--back-xform"]) p.backXformMode
  quality : Named qualities .DefaultQuality (word uses [ascii "-q", ascii "--quality"]) p.quality
  position : Named positions 0 (word uses [ascii "-mp", ascii "--media-pos"]) p.mediaPosition
  mediaType : p.mediaType = (word uses [ascii "-mt", ascii "--media-type"]).getD []

/-- The formats, by name -/
def pdfFormats : List (String × Format) := [("pdf", .PDF), ("postscript", .Postscript), ("ps", .Postscript), ("pwg", .PWG), ("urf", .URF)]

/-- The color modes, by name -/
def pdfColors : List (String × ColorMode) :=
  [("srgb24", .sRGB24), ("cmyk32", .CMYK32), ("gray8", .Gray8), ("black8", .Black8), ("gray1", .Gray1), ("black1", .Black1)]

/-- The format that the name of the output suggests. -/
inductive Suggests (outFile : Bytes) : Format → Prop where
  | ps : ascii ".ps" <:+ outFile → Suggests outFile .Postscript
  | pwg : ascii ".pwg" <:+ outFile → Suggests outFile .PWG
  | urf : ascii ".urf" <:+ outFile → Suggests outFile .URF
  | other : ¬ ascii ".ps" <:+ outFile → ¬ ascii ".pwg" <:+ outFile → ¬ ascii ".urf" <:+ outFile → Suggests outFile .PDF

/-- The format: what the option says, and without it what the name of the output suggests. -/
def PdfFormat (uses : List Use) (outFile : Bytes) (f : Format) : Prop :=
  ∃ f', Suggests outFile f' ∧ Named pdfFormats f' (word uses [ascii "-f", ascii "--format"]) f

/-- The color mode -/
def PdfColor (uses : List Use) (m : ColorMode) : Prop := Named pdfColors .sRGB24 (word uses [ascii "-c", ascii "--color-mode"]) m

/-- `n` is the whole number next to `e`, up to an error of 1/100 and a relative one of 2^-48. -/
def AboutWhole (n : Nat) (e : Rat) : Prop := e - e / 2 ^ 48 - 51 / 100 < n ∧ (n : Rat) < e + e / 2 ^ 48 + 51 / 100

/-- The name of the paper: A4 unless there is another one. -/
def paperName (uses : List Use) : Bytes := (word uses [ascii "--paper-size"]).getD (ascii "iso_a4_210x297mm")

/-- A length of the paper: in the paper's own unit, in pixels and in points. -/
structure Length (unit i f : Bytes) (res : Nat) (x : Rat) (px pt : Nat) : Prop where
  own : IsAbout x i f
  pixels : AboutFloor px (lengthInInches unit (decimalValue i f) * res)
  exact : Clean unit i f res → (px : Int) = (lengthInInches unit (decimalValue i f) * res).floor
  points : AboutWhole pt (lengthInInches unit (decimalValue i f) * 72)

/-- The paper has the size that its name says, at the resolutions of the parameters. -/
def PaperFor (s : Bytes) (paper : Paper) (p : Params) : Prop :=
  ∃ wi wf hi hf unit, PaperName s wi wf hi hf unit ∧ paper.name = s ∧ p.paperSizeName = s ∧
    paper.units = (if unit = ascii "in" then .Inches else .Millimeters) ∧
    Length unit wi wf p.hwResW paper.w p.widthPx p.widthPt ∧ Length unit hi hf p.hwResH paper.h p.heightPx p.heightPt

/-- What the command line of pdf2printable asks for. -/
structure PdfJob (uses : List Use) (outFile : Bytes) (paper : Paper) (p : Params) : Prop where
  common : Common uses p
  format : PdfFormat uses outFile p.format
  color : PdfColor uses p.colorMode
  copies : Counted (2 ^ 64) 1 (word uses [ascii "--copies"]) p.copies
  collated : p.collatedCopies = true
  pages : match word uses [ascii "-p", ascii "--pages"] with
    | none => p.pageRangeList = []
    | some s => DenotesRanges s p.pageRangeList
  paper : PaperFor (paperName uses) paper p

/-- What is refused: an expression for pages that is none, a name of a paper that is none, and for URF colors and media types that it does not have. -/
def PdfRefused (uses : List Use) (outFile : Bytes) : Prop :=
  (∃ s, word uses [ascii "-p", ascii "--pages"] = some s ∧ ∀ rs, ¬ DenotesRanges s rs) ∨
  (∃ s, word uses [ascii "--paper-size"] = some s ∧ ¬ ∃ wi wf hi hf unit, PaperName s wi wf hi hf unit) ∨
  (PdfFormat uses outFile .URF ∧
    ((∃ m, PdfColor uses m ∧ (m = .Black8 ∨ m = .Gray1 ∨ m = .Black1)) ∨
     ∃ t, word uses [ascii "-mt", ascii "--media-type"] = some t ∧ ∀ s n, (s, n) ∈ Raster.Spec.urfMedia → t ≠ ascii s))

/-- Numbers are too large: in the expression for pages, before anything else is wrong with it; or in the name of the paper, if the expression for pages is
one. -/
def PdfTooLarge (uses : List Use) : Prop :=
  (∃ s, word uses [ascii "-p", ascii "--pages"] = some s ∧ Verif.Spec.LargeFirst s) ∨
  ((∀ s, word uses [ascii "-p", ascii "--pages"] = some s → ∃ rs, DenotesRanges s rs) ∧
    ∃ s wi wf hi hf unit, word uses [ascii "--paper-size"] = some s ∧ PaperName s wi wf hi hf unit ∧
      ¬ (Verif.Spec.SizeFits wi wf ∧ Verif.Spec.SizeFits hi hf))

end Spec

open Verif.Convert.Spec

/-! ## Proofs -/

theorem named_of {opts : List Opt} (hd : Disjoint opts) {uses : List Use} (hu : ∀ u ∈ uses, IsUse opts u) {i : Nat} {names values : List Bytes}
    (hi : opts[i]? = some (enumOpt names values)) {α : Type} (table : List (String × α)) (hv : values = table.map (fun x => ascii x.1)) (dflt : α) :
    Named table dflt (word uses names) ((choiceOf (table.map (·.2)) (lastValue uses i)).getD dflt) := by
  rcases value_cases hd hu hi rfl with ⟨_, h2, h3⟩ | ⟨w, v, h1, h2, h3, h4⟩
  · rw [show word uses names = none from h2, h3]; rfl
  · rw [show word uses names = some w from h2, h4]
    simp only [Option.map_eq_some_iff] at h3
    obtain ⟨k, h5, rfl⟩ := h3
    rw [List.idxOf?_eq_some_iff] at h5
    obtain ⟨hk, h6, _⟩ := h5
    subst hv
    rw [List.length_map] at hk
    rw [List.getElem_map] at h6
    refine ⟨(table[k]).1, h6.symm, ?_⟩
    have : choiceOf (table.map (·.2)) (some (.choice k)) = some (table[k]).2 := by simp [choiceOf, hk]
    rw [this]
    exact List.getElem_mem hk

theorem intText_nat (k : Nat) : intText (k : Int) = dec k := by
  unfold intText; rw [if_neg (by omega)]; rfl

theorem uint32Of_nat {k : Nat} (h : k < 2 ^ 31) : uint32Of (k : Int) = k := by unfold uint32Of; omega

theorem int_dec {opts : List Opt} (hd : Disjoint opts) {uses : List Use} (hu : ∀ u ∈ uses, IsUse opts u) {i : Nat} {names : List Bytes}
    (hi : opts[i]? = some (intOpt names)) {k : Nat} (hk : k < 2 ^ 31) (hw : word uses names = some (dec k)) :
    Client.numOf (lastValue uses i) = some (k : Int) := by
  rw [(int_eq hd hu hi).2, hw, ← intText_nat]
  exact stoi_intText (by constructor <;> omega)

theorem int_none {opts : List Opt} (hd : Disjoint opts) {uses : List Use} (hu : ∀ u ∈ uses, IsUse opts u) {i : Nat} {names : List Bytes}
    (hi : opts[i]? = some (intOpt names)) (hw : word uses names = none) : Client.numOf (lastValue uses i) = none := by
  rw [(int_eq hd hu hi).2, hw]; rfl

theorem resolution_of {opts : List Opt} (hd : Disjoint opts) {uses : List Use} (hu : ∀ u ∈ uses, IsUse opts u) {i j : Nat} {own both : List Bytes}
    (hi : opts[i]? = some (intOpt own)) (hj : opts[j]? = some (intOpt both)) :
    Resolution (word uses own) (word uses both) (resolution (lastValue uses i) (lastValue uses j)) := by
  unfold resolution
  refine ⟨fun k hk hw => ?_, fun hn => ⟨fun hw => ?_, fun k hk hw => ?_⟩⟩
  · rw [int_dec hd hu hi hk hw]; exact uint32Of_nat hk
  · rw [int_none hd hu hi hn, int_none hd hu hj hw]
  · rw [int_none hd hu hi hn, int_dec hd hu hj hk hw]; exact uint32Of_nat hk

theorem duplex_of {opts : List Opt} (hd : Disjoint opts) {uses : List Use} (hu : ∀ u ∈ uses, IsUse opts u) {i j : Nat} {a b : List Bytes}
    (hi : opts[i]? = some (boolOpt a)) (hj : opts[j]? = some (boolOpt b)) :
    duplexMode (lastValue uses i) (lastValue uses j) = if lastUse uses b ≠ none then .TwoSidedShortEdge
      else if lastUse uses a ≠ none then .TwoSidedLongEdge else .OneSided := by
  unfold duplexMode
  rw [switch_eq hd hu hi, switch_eq hd hu hj]
  cases lastUse uses a <;> cases lastUse uses b <;> simp

theorem size_of {opts : List Opt} (hd : Disjoint opts) {uses : List Use} (hu : ∀ u ∈ uses, IsUse opts u) {i : Nat} {names : List Bytes}
    (hi : opts[i]? = some (sizeOpt names)) (dflt : Nat) : Counted (2 ^ 64) dflt (word uses names) ((Client.numOf (lastValue uses i)).getD dflt).toNat := by
  rcases value_cases hd hu hi rfl with ⟨_, h2, h3⟩ | ⟨w, v, h1, h2, h3, h4⟩
  · rw [show word uses names = none from h2, h3]
    exact ⟨fun _ => by simp [Client.numOf], fun k _ h => by cases h⟩
  · rw [show word uses names = some w from h2, h4]
    refine ⟨fun h => (by cases h), fun k hk h => ?_⟩
    cases h
    rw [stoul_text (by omega)] at h3
    cases h3
    simp [Client.numOf]

theorem pdf_disjoint : Disjoint pdfOpts := disjoint_of (by decide +kernel)

theorem suggests_of (outFile : Bytes) : Suggests outFile (formatFor outFile) := by
  have he : ∀ e, Text.endsWith outFile e = true ↔ e <:+ outFile := Discovery.endsWith_iff outFile
  unfold formatFor
  split
  · exact .ps ((he _).mp ‹_›)
  · split
    · exact .pwg ((he _).mp ‹_›)
    · split
      · exact .urf ((he _).mp ‹_›)
      · rename_i h1 h2 h3
        exact .other (fun h => h1 ((he _).mpr h)) (fun h => h2 ((he _).mpr h)) (fun h => h3 ((he _).mpr h))

/-- No name has two endings. -/
theorem suggests_unique {outFile : Bytes} {f g : Format} (hf : Suggests outFile f) (hg : Suggests outFile g) : f = g := by
  have no : ∀ {a b : Bytes}, a <:+ outFile → b <:+ outFile → (a.reverse.isPrefixOf b.reverse = false ∧ b.reverse.isPrefixOf a.reverse = false) → False := by
    intro a b ha hb ⟨h1, h2⟩
    rw [← List.reverse_prefix] at ha hb
    rcases List.prefix_or_prefix_of_prefix ha hb with h | h
    · rw [← List.isPrefixOf_iff_prefix] at h; rw [h] at h1; cases h1
    · rw [← List.isPrefixOf_iff_prefix] at h; rw [h] at h2; cases h2
  cases hf with
  | ps h1 =>
    cases hg with
    | ps h2 => exact rfl
    | pwg h2 => exact (no h1 h2 (by decide +kernel)).elim
    | urf h2 => exact (no h1 h2 (by decide +kernel)).elim
    | other a b c => exact absurd h1 a
  | pwg h1 =>
    cases hg with
    | ps h2 => exact (no h1 h2 (by decide +kernel)).elim
    | pwg h2 => exact rfl
    | urf h2 => exact (no h1 h2 (by decide +kernel)).elim
    | other a b c => exact absurd h1 b
  | urf h1 =>
    cases hg with
    | ps h2 => exact (no h1 h2 (by decide +kernel)).elim
    | pwg h2 => exact (no h1 h2 (by decide +kernel)).elim
    | urf h2 => exact rfl
    | other a b c => exact absurd h1 c
  | other a b c =>
    cases hg with
    | ps h2 => exact absurd h2 a
    | pwg h2 => exact absurd h2 b
    | urf h2 => exact absurd h2 c
    | other => rfl

theorem named_unique {α : Type} {table : List (String × α)} {dflt : α} {w : Option Bytes} {a b : α}
    (ht : (table.map (fun x => ascii x.1)).Nodup) (ha : Named table dflt w a) (hb : Named table dflt w b) : a = b := by
  cases w with
  | none => exact ha.trans hb.symm
  | some w =>
    obtain ⟨s, rfl, h1⟩ := ha
    obtain ⟨t, h2, h3⟩ := hb
    induction table with
    | nil => cases h1
    | cons x xs ih =>
      rw [List.map_cons, List.nodup_cons] at ht
      rcases List.mem_cons.mp h1 with e1 | m1 <;> rcases List.mem_cons.mp h3 with e2 | m3
      · rw [← e1] at e2; cases e2; rfl
      · subst e1
        exact absurd (List.mem_map.mpr ⟨(t, b), m3, h2.symm⟩ : ascii s ∈ xs.map (fun x => ascii x.1)) ht.1
      · subst e2
        exact absurd (List.mem_map.mpr ⟨(s, a), m1, h2⟩ : ascii t ∈ xs.map (fun x => ascii x.1)) ht.1
      · exact ih ht.2 m1 m3

theorem pdfFormat_unique {uses : List Use} {outFile : Bytes} {f g : Format} (hf : PdfFormat uses outFile f) (hg : PdfFormat uses outFile g) : f = g := by
  obtain ⟨f', h1, h2⟩ := hf
  obtain ⟨g', h3, h4⟩ := hg
  cases suggests_unique h1 h3
  exact named_unique (by decide +kernel) h2 h4

theorem pdfColor_unique {uses : List Use} {m n : ColorMode} (hm : PdfColor uses m) (hn : PdfColor uses n) : m = n :=
  named_unique (by decide +kernel) hm hn

theorem isUrfMediaType_iff (t : Bytes) : isUrfMediaType t = false ↔ ∀ s n, (s, n) ∈ Raster.Spec.urfMedia → t ≠ ascii s := by
  unfold isUrfMediaType
  constructor
  · rintro h s n hm rfl
    have := urfMediaTypes_mem (ascii s, n) (by rw [urfMediaTypes_eq]; exact List.mem_map_of_mem hm)
    rw [this.1] at h; cases h
  · intro h
    cases hl : urfMediaTypes.lookup t with
    | none => rfl
    | some n =>
      have := lookup_mem hl
      rw [urfMediaTypes_eq, List.mem_map] at this
      obtain ⟨⟨s, k⟩, h1, h2⟩ := this
      cases h2
      exact absurd rfl (h s k h1)

theorem common_pdf {uses : List Use} (hu : ∀ u ∈ uses, IsUse pdfOpts u) (outFile : Bytes) : Common uses (pdfBasic (lastValue uses) outFile) where
  resW := resolution_of pdf_disjoint hu rfl rfl
  resH := resolution_of pdf_disjoint hu rfl rfl
  duplex := duplex_of pdf_disjoint hu rfl rfl
  back := named_of pdf_disjoint hu (i := 11) rfl backs rfl .Normal
  quality := named_of pdf_disjoint hu (i := 13) rfl qualities rfl .DefaultQuality
  position := named_of pdf_disjoint hu (i := 15) rfl positions (by decide +kernel) 0
  mediaType := by
    show (textOf (lastValue uses 16)).getD [] = _
    rw [text_eq pdf_disjoint hu (i := 16) rfl]

theorem common_paper {uses : List Use} {p : Params} {paper : Paper} {rs : List (Nat × Nat)} (h : Common uses p) :
    Common uses (withPaper paper { p with pageRangeList := rs }) := ⟨h.resW, h.resH, h.duplex, h.back, h.quality, h.position, h.mediaType⟩

theorem roundAway_about {x e : Rat} (h : Verif.Spec.AboutHundredth x e) (he : 0 ≤ e) : AboutWhole (roundAway x).toNat e := by
  obtain ⟨h1, h2⟩ := h
  unfold AboutWhole roundAway
  have he' : 0 ≤ e / 2 ^ 48 := by positivity
  by_cases hx : 0 ≤ x
  · rw [if_pos hx]
    have f1 := Int.floor_le (x + 1 / 2)
    have f2 := Int.lt_floor_add_one (x + 1 / 2)
    have f3 : 0 ≤ ⌊x + 1 / 2⌋ := Int.floor_nonneg.mpr (by linarith)
    have f4 : ((⌊x + 1 / 2⌋.toNat : Nat) : Rat) = (⌊x + 1 / 2⌋ : Int) := by
      rw [← Int.cast_natCast, Int.toNat_of_nonneg f3]
    have f5 : (x + 1 / 2).floor = ⌊x + 1 / 2⌋ := rfl
    rw [f5, f4]
    constructor <;> linarith
  · rw [if_neg hx]
    have f1 : 0 ≤ ⌊-x + 1 / 2⌋ := Int.floor_nonneg.mpr (by linarith)
    have f5 : (-x + 1 / 2).floor = ⌊-x + 1 / 2⌋ := rfl
    have f2 : (-⌊-x + 1 / 2⌋).toNat = 0 := by omega
    rw [f5, f2]
    push_cast
    constructor <;> linarith

theorem paperFor_of {s wi wf hi hf unit : Bytes} (hn : PaperName s wi wf hi hf unit) (fw : Verif.Spec.SizeFits wi wf)
    (fh : Verif.Spec.SizeFits hi hf) (p : Params) :
    (setPaperSize {} s).ret = .ok true ∧ PaperFor s (setPaperSize {} s).paper (withPaper (setPaperSize {} s).paper p) := by
  obtain ⟨w, h, hw, hh, e⟩ := (C17_exact {} s).1 wi wf hi hf unit hn fw fh
  obtain ⟨p1, p2, p3, p4⟩ := C65_pixels_partial {} p s wi wf hi hf unit hn fw fh
  obtain ⟨_, _, l3, l4⟩ := C65_lengths {} p s wi wf hi hf unit hn fw fh
  have nn : ∀ i f, 0 ≤ lengthInInches unit (decimalValue i f) * 72 := by
    intro i f
    have := decimalValue_nonneg i f
    unfold lengthInInches; split <;> positivity
  rw [e] at p1 p2 p3 p4 l3 l4 ⊢
  exact ⟨rfl, wi, wf, hi, hf, unit, hn, rfl, rfl, rfl, ⟨hw, p1, p3, roundAway_about l3 (nn _ _)⟩, ⟨hh, p2, p4, roundAway_about l4 (nn _ _)⟩⟩

theorem default_paper : setPaperSize {} (ascii "iso_a4_210x297mm") = ⟨.ok true, {}⟩ := by decide +kernel

theorem default_name : PaperName (ascii "iso_a4_210x297mm") (ascii "210") [] (ascii "297") [] (ascii "mm") :=
  ⟨ascii "iso_a4", ascii "210", ascii "297", by decide +kernel, fun b hb => (isNameChar_iff b).mp (by revert b; decide +kernel),
    .whole ⟨by decide +kernel, by decide +kernel⟩, .whole ⟨by decide +kernel, by decide +kernel⟩, .inl rfl, by decide +kernel⟩

theorem pdf_main {uses : List Use} {args : List Bytes} {inFile outFile : Bytes}
    (ha : Accounts pdfOpts pdfPos args uses [inFile, outFile]) (hh : lastUse uses [ascii "-h", ascii "--help"] = none)
    (lum : Luminosity) (lib : Bytes → Bool → Library) (d : Disk) :
    pdfMain lum lib d args = match pdfParams (lastValue uses) outFile with
      | .ok none => { out := .ok 1 }
      | .ok (some (paper, p)) =>
        let run := pdfToPrintable lum (lib inFile (lastUse uses [ascii "-aa", ascii "--antialias"]).isSome) (fun _ => true) paper p
        { out := codeFor run.result, file := some (outFile, d.kept outFile (blocks run.events).flatten) }
      | .throws e => { out := .throws e }
      | .ub => { out := .ub }
      | .hang => { out := .hang } := by
  obtain ⟨h1, h2, h3⟩ := C45_complete ha
  have hv : (getArgs pdfOpts pdfPos args).vals = lastValue uses := funext h2
  have h0 : (lastValue uses 0).isSome = false := by
    rw [switch_eq pdf_disjoint ha.uses (i := 0) rfl, hh]; rfl
  unfold pdfMain
  simp only [hv, h0, h1, h3, Bool.false_eq_true, if_false, if_true]
  rw [switch_eq pdf_disjoint ha.uses (i := 14) (names := [ascii "-aa", ascii "--antialias"]) rfl]
  rfl

/-- What pages and paper come to. -/
theorem pages_of {uses : List Use} (hu : ∀ u ∈ uses, IsUse pdfOpts u) (p : Params) (hp : p.pageRangeList = []) :
    ((∃ s, word uses [ascii "-p", ascii "--pages"] = some s ∧ Verif.Spec.LargeFirst s) ∧ pagesChosen (lastValue uses 3) p = .throws .outOfRange) ∨
    ¬ (∃ s, word uses [ascii "-p", ascii "--pages"] = some s ∧ Verif.Spec.LargeFirst s) ∧ (
    ((∃ s, word uses [ascii "-p", ascii "--pages"] = some s ∧ ∀ rs, ¬ DenotesRanges s rs) ∧
      ∃ p', pagesChosen (lastValue uses 3) p = .ok (p', false)) ∨
    ¬ (∃ s, word uses [ascii "-p", ascii "--pages"] = some s ∧ ∀ rs, ¬ DenotesRanges s rs) ∧
      ∃ rs, pagesChosen (lastValue uses 3) p = .ok ({ p with pageRangeList := rs }, true) ∧
        match word uses [ascii "-p", ascii "--pages"] with
        | none => rs = []
        | some s => DenotesRanges s rs) := by
  unfold pagesChosen
  rw [text_eq pdf_disjoint hu (i := 3) (names := [ascii "-p", ascii "--pages"]) rfl]
  cases hw : word uses [ascii "-p", ascii "--pages"] with
  | none =>
    refine .inr ⟨fun ⟨s, h, _⟩ => (by cases h), .inr ⟨fun ⟨s, h, _⟩ => (by cases h), [], ?_, rfl⟩⟩
    rw [← hp]
  | some s =>
    obtain ⟨g0, g1, g2⟩ := C14_set_exact p s
    by_cases hl : Verif.Spec.LargeFirst s
    · exact .inl ⟨⟨s, rfl, hl⟩, (g0 _).mpr ⟨rfl, hl⟩⟩
    refine .inr ⟨fun ⟨s', h, h'⟩ => (by cases h; exact hl h'), ?_⟩
    by_cases hd : ∃ rs, DenotesRanges s rs
    · obtain ⟨rs, hd⟩ := hd
      refine .inr ⟨?_, rs, (g1 _).mpr ⟨rs, hd, rfl⟩, hd⟩
      rintro ⟨s', h, h'⟩
      cases h
      exact h' rs hd
    · have hd' : ∀ rs, ¬ DenotesRanges s rs := fun rs h => hd ⟨rs, h⟩
      exact .inl ⟨⟨s, rfl, hd'⟩, _, (g2 _).mpr ⟨⟨hl, hd'⟩, rfl⟩⟩

theorem paper_of {uses : List Use} (hu : ∀ u ∈ uses, IsUse pdfOpts u) :
    ((∃ s wi wf hi hf unit, word uses [ascii "--paper-size"] = some s ∧ PaperName s wi wf hi hf unit ∧
        ¬ (Verif.Spec.SizeFits wi wf ∧ Verif.Spec.SizeFits hi hf)) ∧ (paperChosen (lastValue uses 5)).ret = .throws .outOfRange) ∨
    ¬ (∃ s wi wf hi hf unit, word uses [ascii "--paper-size"] = some s ∧ PaperName s wi wf hi hf unit ∧
        ¬ (Verif.Spec.SizeFits wi wf ∧ Verif.Spec.SizeFits hi hf)) ∧ (
    ((∃ s, word uses [ascii "--paper-size"] = some s ∧ ¬ ∃ wi wf hi hf unit, PaperName s wi wf hi hf unit) ∧
      (paperChosen (lastValue uses 5)).ret = .ok false) ∨
    ¬ (∃ s, word uses [ascii "--paper-size"] = some s ∧ ¬ ∃ wi wf hi hf unit, PaperName s wi wf hi hf unit) ∧
      (paperChosen (lastValue uses 5)).ret = .ok true ∧
      ∀ p, PaperFor (paperName uses) (paperChosen (lastValue uses 5)).paper (withPaper (paperChosen (lastValue uses 5)).paper p)) := by
  unfold paperChosen paperName
  rw [text_eq pdf_disjoint hu (i := 5) (names := [ascii "--paper-size"]) rfl]
  cases hw : word uses [ascii "--paper-size"] with
  | none =>
    refine .inr ⟨fun ⟨s, _, _, _, _, _, h, _⟩ => (by cases h), .inr ⟨fun ⟨s, h, _⟩ => (by cases h), rfl, fun p => ?_⟩⟩
    have := paperFor_of default_name (by decide +kernel) (by decide +kernel) p
    rw [default_paper] at this
    exact this.2
  | some s =>
    by_cases hl : ∃ wi wf hi hf unit, PaperName s wi wf hi hf unit ∧ ¬ (Verif.Spec.SizeFits wi wf ∧ Verif.Spec.SizeFits hi hf)
    · obtain ⟨wi, wf, hi, hf, unit, hn, hl⟩ := hl
      exact .inl ⟨⟨s, wi, wf, hi, hf, unit, rfl, hn, hl⟩, ((C17_exact {} s).2.1 wi wf hi hf unit hn hl).1⟩
    refine .inr ⟨fun ⟨s', wi, wf, hi, hf, unit, h, hn, hl'⟩ => (by cases h; exact hl ⟨wi, wf, hi, hf, unit, hn, hl'⟩), ?_⟩
    by_cases hd : ∃ wi wf hi hf unit, PaperName s wi wf hi hf unit
    · refine .inr ⟨?_, ?_⟩
      · rintro ⟨s', h, h'⟩
        cases h
        exact h' hd
      · obtain ⟨wi, wf, hi, hf, unit, hn⟩ := hd
        have hfit : Verif.Spec.SizeFits wi wf ∧ Verif.Spec.SizeFits hi hf := by
          by_contra hc
          exact hl ⟨wi, wf, hi, hf, unit, hn, hc⟩
        exact ⟨(paperFor_of hn hfit.1 hfit.2 {}).1, fun p => (paperFor_of hn hfit.1 hfit.2 p).2⟩
    · refine .inl ⟨⟨s, rfl, hd⟩, ?_⟩
      show (setPaperSize {} s).ret = _
      rw [(C17_exact {} s).2.2 hd]

theorem params_of {uses : List Use} (hu : ∀ u ∈ uses, IsUse pdfOpts u) (outFile : Bytes) :
    (PdfTooLarge uses ∧ pdfParams (lastValue uses) outFile = .throws .outOfRange) ∨ ¬ PdfTooLarge uses ∧ (
    (PdfRefused uses outFile ∧ pdfParams (lastValue uses) outFile = .ok none) ∨
    (¬ PdfRefused uses outFile ∧ ∃ paper p, PdfJob uses outFile paper p ∧ pdfParams (lastValue uses) outFile = .ok (some (paper, p)))) := by
  have hf : PdfFormat uses outFile (pdfBasic (lastValue uses) outFile).format :=
    ⟨_, suggests_of outFile, named_of pdf_disjoint hu (i := 2) rfl pdfFormats rfl _⟩
  have hc : PdfColor uses (pdfBasic (lastValue uses) outFile).colorMode :=
    named_of pdf_disjoint hu (i := 12) rfl pdfColors rfl _
  have ht : (lastValue uses 16).isSome = (word uses [ascii "-mt", ascii "--media-type"]).isSome := by
    rcases value_cases pdf_disjoint hu (i := 16) (o := textOpt [ascii "-mt", ascii "--media-type"]) rfl rfl with ⟨_, h2, h3⟩ | ⟨w, v, _, h2, _, h4⟩
    · rw [h3, show word uses [ascii "-mt", ascii "--media-type"] = none from h2]; rfl
    · rw [h4, show word uses [ascii "-mt", ascii "--media-type"] = some w from h2]; rfl
  have hm := (common_pdf hu outFile).mediaType
  have hcop : Counted (2 ^ 64) 1 (word uses [ascii "--copies"]) (pdfBasic (lastValue uses) outFile).copies :=
    size_of pdf_disjoint hu (i := 4) rfl 1
  have hcom := common_pdf hu outFile
  unfold pdfParams
  generalize hb : pdfBasic (lastValue uses) outFile = b at *
  have hr : b.pageRangeList = [] := by rw [← hb]; rfl
  have hcol : b.collatedCopies = true := by rw [← hb]; rfl
  rcases pages_of hu b hr with ⟨h0, h2⟩ | ⟨h0, ⟨h1, p', h2⟩ | ⟨h1, rs, h2, h3⟩⟩
  · rw [h2]
    exact .inl ⟨.inl h0, rfl⟩
  · rw [h2]
    refine .inr ⟨?_, .inl ⟨.inl h1, rfl⟩⟩
    rintro (h | ⟨h, _⟩)
    · exact h0 h
    · obtain ⟨s, hs, hn⟩ := h1
      obtain ⟨rs, hd⟩ := h s hs
      exact hn rs hd
  · rw [h2]
    have hden : ∀ s, word uses [ascii "-p", ascii "--pages"] = some s → ∃ rs, DenotesRanges s rs := by
      intro s hs
      rw [hs] at h3
      exact ⟨rs, h3⟩
    rcases paper_of hu with ⟨g0, g2⟩ | ⟨g0, hpap⟩
    · simp only [g2]
      exact .inl ⟨.inr ⟨hden, g0⟩, trivial⟩
    have hnl : ¬ PdfTooLarge uses := by
      rintro (h | ⟨_, h⟩)
      · exact h0 h
      · exact g0 h
    refine .inr ⟨hnl, ?_⟩
    rcases hpap with ⟨g1, g2⟩ | ⟨g1, g2, g3⟩
    · simp only [g2]
      exact .inl ⟨.inr (.inl g1), trivial⟩
    · simp only [g2]
      have hbits : (({ b with pageRangeList := rs } : Params).bitsPerColor = 1 ∨ ({ b with pageRangeList := rs } : Params).isBlack = true) ↔
          (b.colorMode = .Black8 ∨ b.colorMode = .Gray1 ∨ b.colorMode = .Black1) := by
        unfold Params.bitsPerColor Params.isBlack
        cases b.colorMode <;> simp
      by_cases h4 : b.format = .URF ∧ (b.colorMode = .Black8 ∨ b.colorMode = .Gray1 ∨ b.colorMode = .Black1)
      · rw [if_pos ⟨h4.1, hbits.mpr h4.2⟩]
        exact .inl ⟨.inr (.inr ⟨h4.1 ▸ hf, .inl ⟨_, hc, h4.2⟩⟩), rfl⟩
      · rw [if_neg (fun h => h4 ⟨h.1, hbits.mp h.2⟩)]
        by_cases h5 : b.format = .URF ∧ (lastValue uses 16).isSome = true ∧ isUrfMediaType b.mediaType = false
        · rw [if_pos h5]
          refine .inl ⟨.inr (.inr ⟨h5.1 ▸ hf, .inr ?_⟩), rfl⟩
          have h6 := h5.2.1
          rw [ht] at h6
          cases hw : word uses [ascii "-mt", ascii "--media-type"] with
          | none => rw [hw] at h6; cases h6
          | some t =>
            refine ⟨t, rfl, ?_⟩
            rw [hw] at hm
            have h7 := h5.2.2
            rw [show b.mediaType = t from hm] at h7
            exact (isUrfMediaType_iff t).mp h7
        · rw [if_neg h5]
          refine .inr ⟨?_, _, _, ⟨common_paper hcom, hf, hc, hcop, hcol, h3, g3 _⟩, rfl⟩
          rintro (h | h | ⟨hu', h⟩)
          · exact h1 h
          · exact g1 h
          · have hfu : b.format = .URF := pdfFormat_unique hf hu'
            rcases h with ⟨m, h6, h7⟩ | ⟨t, h6, h7⟩
            · rw [pdfColor_unique h6 hc] at h7
              exact h4 ⟨hfu, h7⟩
            · refine h5 ⟨hfu, by rw [ht, h6]; rfl, ?_⟩
              rw [h6] at hm
              rw [show b.mediaType = t from hm]
              exact (isUrfMediaType_iff t).mpr h7

/-- C78: a command line that consists of uses of the options (not of the help) and two names ends with an exception exactly if a number in the pages or in the
name of the paper is too large, and is refused exactly if it otherwise asks for something that there is not; in both cases nothing is made. Otherwise the
document is converted with what the last use of each option says, and all that `pdf_to_printable` writes goes to the output. Missing: words that are not
just a number, and a message for numbers that are too large (see `C78_numbers_false`, `C78_large_false`). -/
theorem C78_converts_partial (lum : Luminosity) (lib : Bytes → Bool → Library) (d : Disk) {args : List Bytes} {uses : List Use} {inFile outFile : Bytes}
    (ha : Accounts pdfOpts pdfPos args uses [inFile, outFile]) (hh : lastUse uses [ascii "-h", ascii "--help"] = none) :
    (PdfTooLarge uses ∧ pdfMain lum lib d args = { out := .throws .outOfRange, file := none }) ∨ ¬ PdfTooLarge uses ∧ (
    (PdfRefused uses outFile ∧ pdfMain lum lib d args = { out := .ok 1, file := none }) ∨
    (¬ PdfRefused uses outFile ∧ ∃ paper p, PdfJob uses outFile paper p ∧
      ∀ run, run = pdfToPrintable lum (lib inFile (lastUse uses [ascii "-aa", ascii "--antialias"]).isSome) (fun _ => true) paper p →
        (pdfMain lum lib d args).file = some (outFile, d.kept outFile (blocks run.events).flatten) ∧
        (run.result = .ok none → (pdfMain lum lib d args).out = .ok 0) ∧
        (∀ e, run.result = .ok (some e) → (pdfMain lum lib d args).out = .ok 1) ∧
        (∀ e, run.result = .throws e → (pdfMain lum lib d args).out = .throws e) ∧
        (run.result = .ub → (pdfMain lum lib d args).out = .ub) ∧ (run.result = .hang → (pdfMain lum lib d args).out = .hang))) := by
  rw [pdf_main ha hh]
  rcases params_of ha.uses outFile with ⟨h0, h2⟩ | ⟨h0, ⟨h1, h2⟩ | ⟨h1, paper, p, h2, h3⟩⟩
  · rw [h2]; exact .inl ⟨h0, rfl⟩
  · rw [h2]; exact .inr ⟨h0, .inl ⟨h1, rfl⟩⟩
  · rw [h3]
    refine .inr ⟨h0, .inr ⟨h1, paper, p, h2, ?_⟩⟩
    rintro run rfl
    refine ⟨rfl, fun h => ?_, fun e h => ?_, fun e h => ?_, fun h => ?_, fun h => ?_⟩ <;> simp only [codeFor, h] <;> rfl

/-- C78: every other command line makes no output and ends with 1, or with 0 when there is a request for help in it. -/
theorem C78_rejects (lum : Luminosity) (lib : Bytes → Bool → Library) (d : Disk) (args : List Bytes)
    (h : ∀ uses pos, ¬ Accounts pdfOpts pdfPos args uses pos) :
    (pdfMain lum lib d args).file = none ∧ ((pdfMain lum lib d args).out = .ok 1 ∨
      ((pdfMain lum lib d args).out = .ok 0 ∧ (ascii "-h" ∈ args ∨ ascii "--help" ∈ args))) := by
  have hns : (getArgs pdfOpts pdfPos args).success = false := by
    cases hs : (getArgs pdfOpts pdfPos args).success with
    | false => rfl
    | true =>
      obtain ⟨uses, pos, ha, _⟩ := C45_sound hs
      exact absurd ha (h uses pos)
  unfold pdfMain
  simp only [hns]
  cases hv : ((getArgs pdfOpts pdfPos args).vals 0).isSome with
  | false => exact ⟨rfl, .inl rfl⟩
  | true =>
    refine ⟨rfl, .inr ⟨rfl, ?_⟩⟩
    obtain ⟨n, ⟨o, ho, hno⟩, hm⟩ := getArgs_set hv
    cases ho
    simp only [helpOpt, boolOpt, List.mem_cons, List.not_mem_nil, or_false] at hno
    rcases hno with rfl | rfl
    · exact .inl hm
    · exact .inr hm

/-- C78: a use of the help option has no further effect. -/
theorem C78_help (lum : Luminosity) (lib : Bytes → Bool → Library) (d : Disk) {args : List Bytes} {uses : List Use} {pos : List Bytes}
    (ha : Accounts pdfOpts pdfPos args uses pos) (hh : lastUse uses [ascii "-h", ascii "--help"] ≠ none) :
    pdfMain lum lib d args = { out := .ok 0, file := none } := by
  obtain ⟨h1, h2, h3⟩ := C45_complete ha
  have h0 : ((getArgs pdfOpts pdfPos args).vals 0).isSome = true := by
    rw [h2, switch_eq pdf_disjoint ha.uses (i := 0) (names := [ascii "-h", ascii "--help"]) rfl]
    cases hl : lastUse uses [ascii "-h", ascii "--help"] with
    | none => exact absurd hl hh
    | some u => rfl
  unfold pdfMain
  simp only [h0]
  rfl

theorem pdfColor_bits {uses : List Use} {m : ColorMode} (h : PdfColor uses m) : Raster.Spec.bitsPerColor m ≤ 8 := by
  have : ∀ x ∈ pdfColors, Raster.Spec.bitsPerColor x.2 ≤ 8 := by decide +kernel
  unfold PdfColor Named at h
  split at h
  · subst h; decide
  · obtain ⟨s, _, hm⟩ := h
    exact this _ hm

/-- What is not refused can be expressed in URF, if the resolution is the same in both directions. -/
theorem urfAble_of {uses : List Use} {outFile : Bytes} {paper : Paper} {p : Params} (hj : PdfJob uses outFile paper p) (hr : ¬ PdfRefused uses outFile)
    (hf : p.format = .URF) (hs : p.hwResW = p.hwResH) : Raster.Spec.UrfAble p := by
  have hfu : PdfFormat uses outFile .URF := hf ▸ hj.format
  refine ⟨hs, ?_, ?_⟩
  · have h1 : ¬ (p.colorMode = .Black8 ∨ p.colorMode = .Gray1 ∨ p.colorMode = .Black1) := fun h => hr (.inr (.inr ⟨hfu, .inl ⟨_, hj.color, h⟩⟩))
    unfold Raster.Spec.urfColorNumber
    cases hc : p.colorMode <;> simp [hc] at h1 ⊢
  · unfold Raster.Spec.urfMediaNumber
    have hm := hj.common.mediaType
    cases hw : word uses [ascii "-mt", ascii "--media-type"] with
    | none => rw [hw] at hm; exact ⟨0, .inl ⟨hm, rfl⟩⟩
    | some t =>
      rw [hw] at hm
      by_cases h2 : ∃ s n, (s, n) ∈ Raster.Spec.urfMedia ∧ t = ascii s
      · obtain ⟨s, n, h3, h4⟩ := h2
        exact ⟨n, .inr ⟨s, h3, hm.trans h4⟩⟩
      · exact absurd (.inr (.inr ⟨hfu, .inr ⟨t, hw, fun s n h3 h4 => h2 ⟨s, n, h3, h4⟩⟩⟩)) hr

/-- C78, from the command line to the pages in the output: unless something is refused, and as long as the sizes fit the headers, cairo does not fail and
there is room, the exit code is 0, and the output is a document of its format by the standard, and as pwg2ppm reads it, with a page for each element of the page sequence: the bitmap of the page it
names, turned for the back side by its position. For PWG and URF. Missing: as for `C78_converts_partial`. -/
theorem C78_document_partial {lum : Luminosity} (hl : Pdf.Spec.Sums lum.plus) (lib : Bytes → Bool → Library) (d : Disk) {args : List Bytes} {uses : List Use}
    {inFile outFile : Bytes} (ha : Accounts pdfOpts pdfPos args uses [inFile, outFile]) (hh : lastUse uses [ascii "-h", ascii "--help"] = none)
    (hlarge : ¬ PdfTooLarge uses) (hr : ¬ PdfRefused uses outFile)
    {doc : Library} (hdoc : doc = lib inFile (lastUse uses [ascii "-aa", ascii "--antialias"]).isSome)
    {pages : Nat} (hp : doc.pages = some pages) (hfail : ∀ d, doc.failed d = false) (hdraw : ∀ n sc img, (doc.draw n sc img).length = img.length)
    (hroom : d.room outFile = none) :
    ∃ paper p seq, PdfJob uses outFile paper p ∧ p.pageSequence pages = .ok seq ∧
      (Raster.Spec.Fits p → p.heightPx ≤ 38347922 → seq.length < 2 ^ 32 → (p.format = .PWG ∨ (p.format = .URF ∧ p.hwResW = p.hwResH)) →
        ∃ bmps outs file, pdfMain lum lib d args = { out := .ok 0, file := some (outFile, file) } ∧
          All2 (fun n bmp => copyRasterBuffer lum p (Pdf.Spec.picture doc paper p n) = .ok bmp) seq bmps ∧
          (p.format = .PWG → readRaster file = .ok (.pwg outs) ∧ All2 ShowsPwg (numbered p 0 bmps) outs ∧ Raster.Spec.PwgDocument (numbered p 0 bmps) file) ∧
          (p.format = .URF → readRaster file = .ok (.urf seq.length outs) ∧ All2 ShowsUrf (numbered p 0 bmps) outs ∧ Raster.Spec.UrfDocument seq.length (numbered p 0 bmps) file)) := by
  rcases C78_converts_partial lum lib d ha hh with ⟨h, _⟩ | ⟨_, ⟨h, _⟩ | ⟨_, paper, p, h2, h3⟩⟩
  · exact absurd h hlarge
  · exact absurd h hr
  · obtain ⟨seq, hseq⟩ := pageSequence_ok p pages
    refine ⟨paper, p, seq, h2, hseq, fun hfit hhei hlen hfm => ?_⟩
    obtain ⟨h4, h5, _, _⟩ := h3 _ rfl
    rw [← hdoc] at h4 h5
    have hk : ∀ x, d.kept outFile x = x := by intro x; unfold Disk.kept; rw [hroom]
    rw [hk] at h4
    have hb := pdfColor_bits h2.color
    have done : ∀ {x : Done} {f : Option (Bytes × Bytes)}, x.out = .ok 0 → x.file = f → x = { out := .ok 0, file := f } := by
      rintro ⟨o, f⟩ g rfl rfl; rfl
    rcases hfm with hf | ⟨hf, hs⟩
    · obtain ⟨seq', bmps, outs, g1, g2, g3, g4, g5, g6, g7⟩ := C48_pwg_document hl (paper := paper) hf hb hfit hhei hp hfail hdraw (taken := fun _ => true) (fun _ => rfl)
      rw [hseq] at g1; cases g1
      exact ⟨bmps, outs, _, done (h5 g2) h4, g4, fun _ => ⟨g5, g6, g7⟩, fun h => (by rw [hf] at h; cases h)⟩
    · obtain ⟨bmps, outs, g2, g3, g4, g5, g6, g7⟩ := C48_urf_document hl (paper := paper) hf hb (urfAble_of h2 hr hf hs) hfit hhei hp hfail hdraw
        (taken := fun _ => true) (fun _ => rfl) hseq hlen
      exact ⟨bmps, outs, _, done (h5 g2) h4, g4, fun h => (by rw [hf] at h; cases h), fun _ => ⟨g5, g6, g7⟩⟩

/-- uses of options for the examples -/
def oddUses : List Use :=
  [{ option := 6, words := [ascii "-r", ascii "-300"], value := .num (-300) }, { option := 4, words := [ascii "--copies", ascii "3x"], value := .num 3 }]

theorem odd_accounts : Accounts pdfOpts pdfPos [ascii "-r", ascii "-300", ascii "--copies", ascii "3x", ascii "a.pdf", ascii "b.pdf"] oddUses
    [ascii "a.pdf", ascii "b.pdf"] := by
  refine ⟨by decide +kernel, ?_, ?_, ?_, by decide +kernel⟩
  · intro u hu
    simp only [oddUses, List.mem_cons, List.not_mem_nil, or_false] at hu
    rcases hu with rfl | rfl
    · exact isUse_of (name := ascii "-r") (w := ascii "-300") rfl rfl rfl rfl (by decide +kernel)
    · exact isUse_of (name := ascii "--copies") (w := ascii "3x") rfl rfl rfl rfl (by decide +kernel)
  · intro a ha
    cases ha
    have : ∀ o ∈ pdfOpts.map (·.names), ascii "a.pdf" ∉ o := by decide +kernel
    intro o ho
    exact this o.names (List.mem_map_of_mem ho)
  · intro i p hp hi
    match i, hp, hi with
    | 0, _, hi => simp at hi
    | 1, _, hi => simp at hi
    | i + 2, hp, _ => simp [pdfPos] at hp

/-- C78 does not hold of all numbers: a negative resolution is accepted, as a very large one, and a rest after the number is ignored. (The full claim would
be that these are refused.) -/
theorem C78_numbers_false : ∃ (args : List Bytes) (uses : List Use) (pos : List Bytes), Accounts pdfOpts pdfPos args uses pos ∧
    lastUse uses [ascii "-h", ascii "--help"] = none ∧
    word uses [ascii "-r", ascii "--resolution"] = some (ascii "-300") ∧ word uses [ascii "--copies"] = some (ascii "3x") ∧
    (pdfBasic (getArgs pdfOpts pdfPos args).vals (pos.getD 1 [])).hwResW = 4294966996 ∧
    (pdfBasic (getArgs pdfOpts pdfPos args).vals (pos.getD 1 [])).copies = 3 :=
  ⟨_, _, _, odd_accounts, by rfl, by decide +kernel, by decide +kernel, by decide +kernel, by decide +kernel⟩

/-- uses of options for the examples -/
def largeUses : List Use :=
  [{ option := 3, words := [ascii "-p", ascii "1,18446744073709551616"], value := .text (ascii "1,18446744073709551616") }]

theorem large_accounts : Accounts pdfOpts pdfPos [ascii "-p", ascii "1,18446744073709551616", ascii "a.pdf", ascii "b.pdf"] largeUses
    [ascii "a.pdf", ascii "b.pdf"] := by
  refine ⟨by decide +kernel, ?_, ?_, ?_, by decide +kernel⟩
  · intro u hu
    simp only [largeUses, List.mem_cons, List.not_mem_nil, or_false] at hu
    subst hu
    exact isUse_of (name := ascii "-p") (w := ascii "1,18446744073709551616") rfl rfl rfl rfl (by decide +kernel)
  · intro a ha
    cases ha
    have : ∀ o ∈ pdfOpts.map (·.names), ascii "a.pdf" ∉ o := by decide +kernel
    intro o ho
    exact this o.names (List.mem_map_of_mem ho)
  · intro i p hp hi
    match i, hp, hi with
    | 0, _, hi => simp at hi
    | 1, _, hi => simp at hi
    | i + 2, hp, _ => simp [pdfPos] at hp

/-- C78 does not hold of numbers that are too large: the program ends with an exception, and no message. (The full claim would be that the page range is
refused.) -/
theorem C78_large_false : ∃ (args : List Bytes) (uses : List Use) (pos : List Bytes), Accounts pdfOpts pdfPos args uses pos ∧
    lastUse uses [ascii "-h", ascii "--help"] = none ∧ word uses [ascii "-p", ascii "--pages"] = some (ascii "1,18446744073709551616") ∧
    ∀ (lum : Luminosity) (lib : Bytes → Bool → Library) (d : Disk), pdfMain lum lib d args = { out := .throws .outOfRange, file := none } := by
  have hw : word largeUses [ascii "-p", ascii "--pages"] = some (ascii "1,18446744073709551616") := by decide +kernel
  have hl : PdfTooLarge largeUses :=
    .inl ⟨_, hw, (((C14_exact (ascii "1,18446744073709551616")).1 .outOfRange).mp (by decide +kernel)).2⟩
  refine ⟨_, _, _, large_accounts, by rfl, hw, fun lum lib d => ?_⟩
  rcases C78_converts_partial lum lib d large_accounts (by rfl) with ⟨_, h⟩ | ⟨h, _⟩
  · exact h
  · exact absurd hl h

/-- C78 does not extend to the exit code when there is no room for the output: it is 0 although nothing is in the file. (The full claim would be that the exit
code is 0 only if all of the output has been written.) -/
theorem C78_room_false : ∃ (lum : Luminosity) (lib : Bytes → Bool → Library) (read : Bytes → Option Bytes) (args : List Bytes) (outFile data : Bytes),
    data ≠ [] ∧ pdfMain lum lib ⟨read, fun _ => none⟩ args = { out := .ok 0, file := some (outFile, data) } ∧
    pdfMain lum lib ⟨read, fun _ => some 0⟩ args = { out := .ok 0, file := some (outFile, []) } :=
  ⟨codeLuminosity, fun _ _ => exLibrary, fun _ => none, [ascii "a.pdf", ascii "b.pdf"], ascii "b.pdf", [1, 1, 1, 3], by decide,
    by decide +kernel, by decide +kernel⟩

/-- uses of options for the examples -/
def plainUses : List Use :=
  [{ option := 7, words := [ascii "-rx", ascii "600"], value := .num 600 }, { option := 6, words := [ascii "-r", ascii "1200"], value := .num 1200 },
   { option := 6, words := [ascii "-r", ascii "600"], value := .num 600 },
   { option := 3, words := [ascii "-p", ascii "2-3"], value := .text (ascii "2-3") },
   { option := 12, words := [ascii "-c", ascii "gray8"], value := .choice 2 }, { option := 10, words := [ascii "-t"], value := .flag }]

theorem plain_accounts : Accounts pdfOpts pdfPos [ascii "-rx", ascii "600", ascii "-r", ascii "1200", ascii "-r", ascii "600", ascii "-p", ascii "2-3",
    ascii "-c", ascii "gray8", ascii "-t", ascii "a.pdf", ascii "b.urf"] plainUses [ascii "a.pdf", ascii "b.urf"] := by
  refine ⟨by decide +kernel, ?_, ?_, ?_, by decide +kernel⟩
  · intro u hu
    simp only [plainUses, List.mem_cons, List.not_mem_nil, or_false] at hu
    rcases hu with rfl | rfl | rfl | rfl | rfl | rfl
    · exact isUse_of (name := ascii "-rx") (w := ascii "600") rfl rfl rfl rfl (by decide +kernel)
    · exact isUse_of (name := ascii "-r") (w := ascii "1200") rfl rfl rfl rfl (by decide +kernel)
    · exact isUse_of (name := ascii "-r") (w := ascii "600") rfl rfl rfl rfl (by decide +kernel)
    · exact isUse_of (name := ascii "-p") (w := ascii "2-3") rfl rfl rfl rfl (by decide +kernel)
    · exact isUse_of (name := ascii "-c") (w := ascii "gray8") rfl rfl rfl rfl (by decide +kernel)
    · exact isUse_of_switch (name := ascii "-t") rfl rfl rfl rfl rfl
  · intro a ha
    cases ha
    have : ∀ o ∈ pdfOpts.map (·.names), ascii "a.pdf" ∉ o := by decide +kernel
    intro o ho
    exact this o.names (List.mem_map_of_mem ho)
  · intro i p hp hi
    match i, hp, hi with
    | 0, _, hi => simp at hi
    | 1, _, hi => simp at hi
    | i + 2, hp, _ => simp [pdfPos] at hp

theorem plain_not_refused : ¬ PdfRefused plainUses (ascii "b.urf") := by
  have hp : word plainUses [ascii "-p", ascii "--pages"] = some (ascii "2-3") := by decide +kernel
  have hs : word plainUses [ascii "--paper-size"] = none := by decide +kernel
  have hc : word plainUses [ascii "-c", ascii "--color-mode"] = some (ascii "gray8") := by decide +kernel
  have hm : word plainUses [ascii "-mt", ascii "--media-type"] = none := by decide +kernel
  rintro (⟨s, h1, h2⟩ | ⟨s, h1, _⟩ | ⟨_, ⟨m, h1, h2⟩ | ⟨t, h1, _⟩⟩)
  · rw [hp] at h1; cases h1
    have h3 := (C14_page_ranges_partial (ascii "2-3")).1 [(2, 3)] (by simp)
    exact h2 _ (h3.mp (by decide +kernel))
  · rw [hs] at h1; cases h1
  · have h3 : PdfColor plainUses .Gray8 := by
      unfold PdfColor; rw [hc]
      exact ⟨"gray8", rfl, by simp [pdfColors]⟩
    rw [pdfColor_unique h1 h3] at h2
    simp at h2
  · rw [hm] at h1; cases h1

/-- the parameters of that command line -/
def plainParams : Params :=
  { format := .URF, colorMode := .Gray8, hwResW := 600, hwResH := 600, widthPx := 4960, heightPx := 7015, duplexMode := .TwoSidedShortEdge,
    pageRangeList := [(2, 3)] }

/-- The hypotheses of the theorems are met: the last use counts, the ending gives the format, and the two pages fit. -/
example : pdfParams (getArgs pdfOpts pdfPos [ascii "-rx", ascii "600", ascii "-r", ascii "1200", ascii "-r", ascii "600", ascii "-p", ascii "2-3",
      ascii "-c", ascii "gray8", ascii "-t", ascii "a.pdf", ascii "b.urf"]).vals (ascii "b.urf") = .ok (some ({}, plainParams)) ∧
    lastUse plainUses [ascii "-h", ascii "--help"] = none ∧ plainParams.pageSequence 3 = .ok [2, 3] ∧ Raster.Spec.Fits plainParams ∧
    ¬ PdfTooLarge plainUses := by
  refine ⟨by decide +kernel, by rfl, by decide +kernel,
    ⟨by decide, by decide, by decide, by decide, by decide, by decide, by decide, by decide, by decide, by decide +kernel⟩, ?_⟩
  rintro (⟨s, hs, hl⟩ | ⟨_, s, wi, wf, hi, hf, unit, hs, _⟩)
  · have : word plainUses [ascii "-p", ascii "--pages"] = some (ascii "2-3") := by decide +kernel
    rw [this] at hs; cases hs
    have h := ((C14_exact (ascii "2-3")).1 .outOfRange).mpr ⟨rfl, hl⟩
    revert h
    decide +kernel
  · have : word plainUses [ascii "--paper-size"] = none := by decide +kernel
    rw [this] at hs; cases hs

/-- refused: URF has no black -/
example : PdfRefused [{ option := 12, words := [ascii "-c", ascii "black8"], value := .choice 3 }] (ascii "b.urf") :=
  .inr (.inr ⟨⟨.URF, .urf ⟨ascii "b", by decide +kernel⟩, by rfl⟩, .inl ⟨.Black8, ⟨"black8", by rfl, by simp [pdfColors]⟩, .inl rfl⟩⟩)

/-- a command line with one name only is no use of the options and two names -/
example : ∀ uses pos, ¬ Accounts pdfOpts pdfPos [ascii "-v", ascii "a.pdf"] uses pos := by
  intro uses pos h
  exact absurd (C45_complete h).1 (by decide +kernel)

end Verif.Convert
