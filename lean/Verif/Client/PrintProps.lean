import Verif.Client.CommandProps
import Verif.Ipp.SettingProps
import Verif.Params.Unfit

/-!
# Property C75: what the options of `ippclient print` do to the job
-/

namespace Verif.Client

open Ipp Ipp.Spec Job Printer Printer.Spec Tools Tools.Spec Spec

/-! ## Specification -/

namespace Spec

/-- The attribute that the page ranges come to, in 32 bits. -/
def rangesValue (rs : List (Nat × Nat)) : Value := .set (rs.map (fun r => .range ((min r.1 2147483647 : Nat) : Int) ((min r.2 2147483647 : Nat) : Int)))

/-- The text after `-p`, if any, gives this value. -/
def PagesGive (o : Options) (v : Option Value) : Prop :=
  (o.pages = none ∧ v = none) ∨ ∃ text rs, o.pages = some text ∧ DenotesRanges text rs ∧ v = some (rangesValue rs)

/-- A resolution in dots per inch. -/
def dpi (x y : UInt32) : Value := .res x y 3

/-- The resolution that is asked for: `-rx` and `-ry`, else `-r`. -/
def resolution (o : Options) : Option Value :=
  match o.hwResX, o.hwResY with
  | some x, some y => some (dpi x y)
  | _, _ => o.hwRes.map (fun r => dpi r r)

/-- What the options ask for, by the attributes' places and tags; a margin of its own comes before `-m`. -/
def wanted (o : Options) (pages : Option Value) : List (Place × UInt8 × Option Value) :=
  [(([], ascii "page-ranges"), 0x33, pages), (([], ascii "copies"), 0x21, o.copies.map .int),
   (([], ascii "multiple-document-handling"), 0x44, o.collatedCopies.map .str), (([], ascii "media"), 0x44, o.paperSize.map .str),
   (([], ascii "printer-resolution"), 0x32, resolution o), (([], ascii "sides"), 0x44, o.sides.map .str),
   (([], ascii "print-color-mode"), 0x44, o.colorMode.map .str), (([], ascii "print-quality"), 0x23, o.quality.map .int),
   (([], ascii "print-scaling"), 0x44, o.scaling.map .str),
   ((ascii "media-col", ascii "media-type"), 0x44, o.mediaType.map .str), ((ascii "media-col", ascii "media-source"), 0x44, o.mediaSource.map .str),
   (([], ascii "output-bin"), 0x44, o.outputBin.map .str), (([], ascii "finishings"), 0x23, o.finishing.map .int),
   ((ascii "media-col", ascii "media-top-margin"), 0x21, (o.topMargin.or o.margin).map .int),
   ((ascii "media-col", ascii "media-bottom-margin"), 0x21, (o.bottomMargin.or o.margin).map .int),
   ((ascii "media-col", ascii "media-left-margin"), 0x21, (o.leftMargin.or o.margin).map .int),
   ((ascii "media-col", ascii "media-right-margin"), 0x21, (o.rightMargin.or o.margin).map .int)]

/-- The values that have to be among those that the printer supports, by the attributes' names. -/
def checked (o : Options) : List (Bytes × Option Value) :=
  [(ascii "multiple-document-handling", o.collatedCopies.map .str), (ascii "media", o.paperSize.map .str),
   (ascii "printer-resolution", o.hwRes.map (fun r => dpi r r)),
   (ascii "printer-resolution", match o.hwResX, o.hwResY with
      | some x, some y => some (dpi x y)
      | _, _ => none),
   (ascii "sides", o.sides.map .str), (ascii "print-color-mode", o.colorMode.map .str), (ascii "print-quality", o.quality.map .int),
   (ascii "print-scaling", o.scaling.map .str), (ascii "document-format", o.format.map .str), (ascii "media-type", o.mediaType.map .str),
   (ascii "media-source", o.mediaSource.map .str), (ascii "output-bin", o.outputBin.map .str), (ascii "finishings", o.finishing.map .int),
   (ascii "media-top-margin", o.margin.map .int), (ascii "media-bottom-margin", o.margin.map .int),
   (ascii "media-left-margin", o.margin.map .int), (ascii "media-right-margin", o.margin.map .int),
   (ascii "media-top-margin", o.topMargin.map .int), (ascii "media-bottom-margin", o.bottomMargin.map .int),
   (ascii "media-left-margin", o.leftMargin.map .int), (ascii "media-right-margin", o.rightMargin.map .int)]

/-- The names of the types of files that are recognised. -/
def typeName : Mime → Bytes
  | .pdf => ascii "application/pdf"
  | .postscript => ascii "application/postscript"
  | .pwg => ascii "image/pwg-raster"
  | .urf => ascii "image/urf"
  | .png => ascii "image/png"
  | .gif => ascii "image/gif"
  | .jpeg => ascii "image/jpeg"
  | .tiff => ascii "image/tiff"
  | _ => []

/-- The type of the input: what is given by `--mime-type`, else what the file starts with. -/
def TypeIs (w : World) (o : Options) (inFile t : Bytes) : Prop :=
  o.mimeType = some t ∨
  (o.mimeType = none ∧ inFile ≠ ascii "-" ∧ ∃ data m, w.files.read inFile = some data ∧ HasMagic data m ∧ t = typeName m)

/-- The type of the input is not given, and can not be told: standard input, or a file that can not be read, or that starts with none of the magic numbers
(nor with the parts of those of TIFF that are looked at, see C47). -/
def NoType (w : World) (o : Options) (inFile : Bytes) : Prop :=
  o.mimeType = none ∧ (inFile = ascii "-" ∨ ∀ data, w.files.read inFile = some data →
    (∀ m, ¬ HasMagic data m) ∧ ¬ ascii "MM" <+: data ∧ ¬ ascii "II*" <+: data)

/-- What stands at these places, when these values are asked for: they, else what stood there before. All other places are as they were, except that a
collection changes with its members. -/
def Become (wanted : List (Place × UInt8 × Option Value)) (before after : Attrs) : Prop :=
  (∀ x ∈ wanted, at_ after x.1 = (x.2.2.map (fun v => (x.2.1, v))).or (at_ before x.1)) ∧
  ∀ q : Place, (∀ x ∈ wanted, x.1 ≠ q) → (q.1 = [] ∧ q.2 ≠ ascii "media-col" ∨ q.1 = ascii "media-col") → at_ after q = at_ before q

/-- The printer supports this value. -/
def Supported (p : Printer) (name : Bytes) (v : Value) : Prop := Declares (KMap.get? p.attrs (name ++ ascii "-supported")) v

/-- The printer takes one of the raster formats. -/
def TakesRaster (p : Printer) : Prop :=
  Supported p (ascii "document-format") (.str (ascii "image/pwg-raster")) ∨ Supported p (ascii "document-format") (.str (ascii "image/urf"))

/-- The number of copies is in the printer's range. -/
def CopiesSupported (p : Printer) (n : Int) : Prop :=
  ∃ tag l h, KMap.get? p.attrs (ascii "copies-supported") = some (tag, .range l h) ∧ l ≤ n ∧ n ≤ h

/-- Why a command line of `print` is refused although its form is right. -/
inductive Refused (p : Printer) (o : Options) : Prop where
  /-- the text after `-p` gives no page ranges -/
  | pages (text : Bytes) (h1 : o.pages = some text) (h2 : ∀ rs, ¬ DenotesRanges text rs)
  /-- `-rx` without `-ry`, or the other way around -/
  | oneResolution (h : o.hwResX.isSome ≠ o.hwResY.isSome)
  /-- a number of copies which the printer can not make, nor the client for it -/
  | copies (n : Int) (h1 : o.copies = some n) (h2 : ¬ CopiesSupported p n) (h3 : ¬ TakesRaster p) (h4 : o.force = false)
  /-- a value which the printer does not support -/
  | value (name : Bytes) (v : Value) (h1 : (name, some v) ∈ checked o) (h2 : ¬ Supported p name v) (h3 : o.force = false)

/-- The text after `-p` has a number of 2^64 or more, and nothing is wrong before it. -/
def TooLarge (o : Options) : Prop := ∃ text, o.pages = some text ∧ Verif.Spec.LargeFirst text

/-- What makes `print` end with an exception, for a printer that a job can be made for: a text after `-p` with a number of 2^64 or more, and values of wrong types in
those of the printer's lists that are read. These are the lists for the values that are asked for, and those of resolutions and of qualities in any case. -/
inductive Breaks (p : Printer) (o : Options) : Exn → Prop where
  | pages (h : TooLarge o) : Breaks p o .outOfRange
  /-- a value of another type than the one that is asked for -/
  | value (name : Bytes) (v x : Value) (h1 : (name, some v) ∈ checked o) (h2 : Supported p name x) (h3 : x.ty ≠ v.ty) : Breaks p o .badVariant
  /-- a number of copies is asked for, and the printer has something else than a range for them -/
  | copies (n : Int) (a : Attr) (h1 : o.copies = some n) (h2 : KMap.get? p.attrs (ascii "copies-supported") = some a) (h3 : ∀ l h, a.2 ≠ .range l h) : Breaks p o .badVariant
  | resolution (x : Value) (h1 : Supported p (ascii "printer-resolution") x) (h2 : x.ty ≠ some .res) : Breaks p o .badVariant
  | quality (x : Value) (h1 : Supported p (ascii "print-quality") x) (h2 : x.ty ≠ some .int) : Breaks p o .badVariant
  /-- a print quality that is none of the three that there are -/
  | otherQuality (q : Int) (h1 : Supported p (ascii "print-quality") (.int q)) (h2 : q ≠ 3 ∧ q ≠ 4 ∧ q ≠ 5)
      (h3 : ∀ x, Supported p (ascii "print-quality") x → x.ty = some .int) : Breaks p o .outOfRange

/-- The printer's attributes are of the types that IPP prescribes. -/
structure Types (p : Printer) : Prop where
  texts : ∀ n ∈ [ascii "multiple-document-handling", ascii "media", ascii "sides", ascii "print-color-mode", ascii "print-scaling",
    ascii "document-format", ascii "media-type", ascii "media-source", ascii "output-bin"], ∀ v, Supported p n v → v.ty = some .str
  ints : ∀ n ∈ [ascii "print-quality", ascii "finishings", ascii "media-top-margin", ascii "media-bottom-margin", ascii "media-left-margin",
    ascii "media-right-margin"], ∀ v, Supported p n v → v.ty = some .int
  resolutions : ∀ v, Supported p (ascii "printer-resolution") v → v.ty = some .res
  copies : ∀ a, KMap.get? p.attrs (ascii "copies-supported") = some a → ∃ l h, a.2 = .range l h

/-- Besides, its print qualities are among the three that there are. -/
structure Typed (p : Printer) : Prop extends Types p where
  qualities : ∀ v, Supported p (ascii "print-quality") v → v = .int 3 ∨ v = .int 4 ∨ v = .int 5

end Spec

open Spec

/-! ## Proofs -/

/-- What a step does: which exception it ends the program with, whether it ends the program with 1, and otherwise the settings that it sets. -/
structure Part where
  breaks : Exn → Prop := fun _ => False
  bad : Prop
  job : List Op
  op : List Op

/-- The step does this, on jobs for the printer. -/
def Does (pa : Attrs) (s : Step) (d : Part) : Prop :=
  ∀ j : PrintJob, j.printerAttrs = pa →
    (∀ e, d.breaks e → s j = .throws e) ∧
    ((∀ e, ¬ d.breaks e) → (d.bad → s j = .ok none) ∧
      (¬ d.bad → s j = do
        let a ← applyAll d.job j.jobAttrs
        let b ← applyAll d.op j.opAttrs
        return some { j with jobAttrs := a, opAttrs := b }))

/-- This many steps do this, one by one. -/
inductive DoAll (pa : Attrs) : List Step → List Part → Prop where
  | nil : DoAll pa [] []
  | cons {s : Step} {d : Part} {ss : List Step} {ds : List Part} : Does pa s d → DoAll pa ss ds → DoAll pa (s :: ss) (d :: ds)

theorem job_independent : Independent jobSettings := by unfold Independent; decide +kernel
theorem op_independent : Independent opSettings := by unfold Independent; decide +kernel

theorem applyAll_append (a b : List Op) (attrs : Attrs) : applyAll (a ++ b) attrs = applyAll a attrs >>= applyAll b := by
  induction a generalizing attrs with
  | nil => rfl
  | cons o a ih =>
    simp only [List.cons_append, applyAll]
    cases apply o attrs with
    | ok x => simp only [Outcome.bind_ok, ih]
    | _ => rfl

theorem runSteps_parts {pa : Attrs} {ss : List Step} {ds : List Part} (h : DoAll pa ss ds) : ∀ {j : PrintJob}, j.printerAttrs = pa →
    CollectionsOk jobSettings j.jobAttrs → CollectionsOk opSettings j.opAttrs →
    (∀ d ∈ ds, ∀ o ∈ d.job, o.setting ∈ jobSettings) → (∀ d ∈ ds, ∀ o ∈ d.op, o.setting ∈ opSettings) →
    ((∀ d ∈ ds, (∀ e, ¬ d.breaks e) ∧ ¬ d.bad) ∧
      ∃ a b, applyAll (ds.map (·.job)).flatten j.jobAttrs = .ok a ∧ applyAll (ds.map (·.op)).flatten j.opAttrs = .ok b ∧
        runSteps ss j = .ok (some { j with jobAttrs := a, opAttrs := b })) ∨
    (∃ d ∈ ds, d.bad ∧ runSteps ss j = .ok none) ∨ ∃ d ∈ ds, ∃ e, d.breaks e ∧ runSteps ss j = .throws e := by
  induction h with
  | nil =>
    intro j _ _ _ _ _
    exact .inl ⟨fun d hd => (by cases hd), _, _, rfl, rfl, rfl⟩
  | cons hd hr ih =>
    rename_i s d ss ds
    intro j hp hj ho h1 h2
    have hs := hd j hp
    by_cases he : ∃ e, d.breaks e
    · obtain ⟨e, he⟩ := he
      refine .inr (.inr ⟨d, List.mem_cons_self, e, he, ?_⟩)
      rw [runSteps, hs.1 e he]
      rfl
    have he : ∀ e, ¬ d.breaks e := fun e h => he ⟨e, h⟩
    have hs := hs.2 he
    by_cases hb : d.bad
    · refine .inr (.inl ⟨d, List.mem_cons_self, hb, ?_⟩)
      rw [runSteps, hs.1 hb]
      rfl
    · obtain ⟨a, ha, hja, _⟩ := applyAll_spec job_independent d.job (h1 d List.mem_cons_self) hj
      obtain ⟨b, hb', hob, _⟩ := applyAll_spec op_independent d.op (h2 d List.mem_cons_self) ho
      have e : s j = .ok (some { j with jobAttrs := a, opAttrs := b }) := by rw [hs.2 hb, ha, hb']; rfl
      have er : runSteps (s :: ss) j = runSteps ss { j with jobAttrs := a, opAttrs := b } := by rw [runSteps, e]; rfl
      rw [er]
      rcases ih (j := { j with jobAttrs := a, opAttrs := b }) hp hja hob (fun d' hd' => h1 d' (List.mem_cons_of_mem _ hd'))
        (fun d' hd' => h2 d' (List.mem_cons_of_mem _ hd')) with ⟨hall, a', b', ha', hb'', hrun⟩ | ⟨d', hd', h⟩ | ⟨d', hd', h⟩
      · refine .inl ⟨fun d' hd' => ?_, a', b', ?_, ?_, hrun⟩
        · rcases List.mem_cons.mp hd' with rfl | hd'
          · exact ⟨he, hb⟩
          · exact hall d' hd'
        · rw [List.map_cons, List.flatten_cons, applyAll_append, ha]; exact ha'
        · rw [List.map_cons, List.flatten_cons, applyAll_append, hb']; exact hb''
      · exact .inr (.inl ⟨d', List.mem_cons_of_mem _ hd', h⟩)
      · exact .inr (.inr ⟨d', List.mem_cons_of_mem _ hd', h⟩)

/-- Setting a value, if there is one. -/
def setOps (s : Setting) (given : Option Value) : List Op := (given.map (Op.set s)).toList

/-- The value of a choice is not supported, and not forced. -/
def Unsupported (p : Printer) (name : Bytes) (given : Option Value) (force : Bool) : Prop := ∃ v, given = some v ∧ ¬ Supported p name v ∧ force = false

/-- The list that a value is looked for in has values of other types. -/
def Mixed (p : Printer) (s : Setting) (given : Option Value) (e : Exn) : Prop := e = .badVariant ∧ given.isSome ∧ ∃ x, Supported p s.name x ∧ x.ty ≠ some s.ty

theorem setJob_eq (s : Setting) (v : Value) (j : PrintJob) :
    (do let j' ← setJob s v j; return some j' : Outcome (Option PrintJob)) = (do
      let a ← applyAll [.set s v] j.jobAttrs
      let b ← applyAll [] j.opAttrs
      return some { j with jobAttrs := a, opAttrs := b }) := by
  unfold setJob
  simp only [applyAll, apply]
  cases s.set v j.jobAttrs <;> rfl

theorem setOp_eq (s : Setting) (v : Value) (j : PrintJob) :
    (do let j' ← setOp s v j; return some j' : Outcome (Option PrintJob)) = (do
      let a ← applyAll [] j.jobAttrs
      let b ← applyAll [.set s v] j.opAttrs
      return some { j with jobAttrs := a, opAttrs := b }) := by
  unfold setOp
  simp only [applyAll, apply]
  cases s.set v j.opAttrs <;> rfl

theorem choose_does (p : Printer) (s : Setting) (given : Option Value) (force : Bool) :
    Does p.attrs (choose s given force) { breaks := Mixed p s given, bad := Unsupported p s.name given force, job := setOps s given, op := [] } := by
  intro j hj
  unfold choose setOrFail setOps
  cases given with
  | none => exact ⟨fun e ⟨_, h, _⟩ => (by cases h), fun _ => ⟨fun ⟨v, h, _⟩ => (by cases h), fun _ => rfl⟩⟩
  | some v =>
    refine ⟨fun e ⟨he, _, hx⟩ => ?_, fun hm => ?_⟩
    · simp only [hj, C54_choice_bad_type s p.attrs v hx, he]
      rfl
    have ht : ∀ x, Supported p s.name x → x.ty = some s.ty := fun x hx => Classical.byContradiction fun hn => hm _ ⟨rfl, rfl, x, hx, hn⟩
    obtain ⟨b, hb, hiff⟩ := C54_choice s p.attrs v ht
    rw [← hj] at hb
    simp only [hb, Outcome.bind_ok]
    constructor
    · rintro ⟨v', h1, h2, h3⟩
      cases h1
      have : b = false := by
        cases b with
        | false => rfl
        | true => exact absurd (hiff.mp rfl) h2
      rw [this, h3]
      rfl
    · intro hn
      have : (b || force) = true := by
        cases b with
        | true => rfl
        | false =>
          cases force with
          | true => rfl
          | false => exact absurd ⟨v, rfl, fun hs => (by cases hiff.mpr hs), rfl⟩ hn
      rw [this, if_pos rfl]
      exact setJob_eq s v j

theorem format_does (p : Printer) (s : Setting) (given : Option Value) (force : Bool) :
    Does p.attrs (setOrFail s.choiceSupports (setOp s) given force) { breaks := Mixed p s given, bad := Unsupported p s.name given force, job := [], op := setOps s given } := by
  intro j hj
  unfold setOrFail setOps
  cases given with
  | none => exact ⟨fun e ⟨_, h, _⟩ => (by cases h), fun _ => ⟨fun ⟨v, h, _⟩ => (by cases h), fun _ => rfl⟩⟩
  | some v =>
    refine ⟨fun e ⟨he, _, hx⟩ => ?_, fun hm => ?_⟩
    · simp only [hj, C54_choice_bad_type s p.attrs v hx, he]
      rfl
    have ht : ∀ x, Supported p s.name x → x.ty = some s.ty := fun x hx => Classical.byContradiction fun hn => hm _ ⟨rfl, rfl, x, hx, hn⟩
    obtain ⟨b, hb, hiff⟩ := C54_choice s p.attrs v ht
    rw [← hj] at hb
    simp only [hb, Outcome.bind_ok]
    constructor
    · rintro ⟨v', h1, h2, h3⟩
      cases h1
      have : b = false := by
        cases b with
        | false => rfl
        | true => exact absurd (hiff.mp rfl) h2
      rw [this, h3]
      rfl
    · intro hn
      have : (b || force) = true := by
        cases b with
        | true => rfl
        | false =>
          cases force with
          | true => rfl
          | false => exact absurd ⟨v, rfl, fun hs => (by cases hiff.mpr hs), rfl⟩ hn
      rw [this, if_pos rfl]
      exact setOp_eq s v j

theorem nothing_does (pa : Attrs) {s : Step} {bad : Prop} (h : ∀ j : PrintJob, j.printerAttrs = pa → (bad → s j = .ok none) ∧ (¬ bad → s j = .ok (some j))) :
    Does pa s { bad := bad, job := [], op := [] } := fun j hj => ⟨fun _ h => h.elim, fun _ => ⟨(h j hj).1, fun hb => (h j hj).2 hb⟩⟩

theorem strAll_ok {l : List Value} (h : ∀ v ∈ l, v.ty = some .str) : ∀ t : Bytes, t ∈ l.map strOf ↔ Value.str t ∈ l := by
  intro t
  rw [List.mem_map]
  constructor
  · rintro ⟨v, hv, rfl⟩
    have := h v hv
    cases v <;> first | exact hv | cases this
  · intro hm
    exact ⟨_, hm, rfl⟩

theorem raster_iff {p : Printer} (ht : ∀ v, Supported p (ascii "document-format") v → v.ty = some .str) :
    ∃ b, supportsPrinterRaster p = .ok b ∧ (b = true ↔ TakesRaster p) := by
  unfold supportsPrinterRaster documentFormats strList Attrs.getList
  have e : ascii "document-format" ++ ascii "-supported" = ascii "document-format-supported" := by decide +kernel
  unfold TakesRaster
  unfold Supported at *
  rw [e] at ht ⊢
  cases hg : KMap.get? p.attrs (ascii "document-format-supported") with
  | none => exact ⟨false, rfl, by simp [Declares]⟩
  | some a =>
    rw [hg] at ht
    simp only [declares_asList] at ht ⊢
    simp only [getAll_ok ht, Outcome.bind_ok, Outcome.pure_eq]
    refine ⟨_, rfl, ?_⟩
    simp only [Bool.or_eq_true, List.contains_iff_mem, strAll_ok ht]
    rfl

/-- A number of copies is asked for, and the printer has something else than a range for them. -/
def OddCopies (p : Printer) (o : Options) (e : Exn) : Prop :=
  e = .badVariant ∧ ∃ n a, o.copies = some n ∧ KMap.get? p.attrs (ascii "copies-supported") = some a ∧ ∀ l h, a.2 ≠ .range l h

theorem copies_does {p : Printer} (ht : ∀ v, Supported p (ascii "document-format") v → v.ty = some .str) (o : Options) :
    Does p.attrs (copiesStep p o)
      { breaks := OddCopies p o, bad := ∃ n, o.copies = some n ∧ ¬ CopiesSupported p n ∧ ¬ TakesRaster p ∧ o.force = false, job := setOps sCopies (o.copies.map .int), op := [] } := by
  intro j hj
  obtain ⟨r, hr, hri⟩ := raster_iff ht
  obtain ⟨f, hf, hfi⟩ : ∃ f, (if o.force then pure true else supportsPrinterRaster p) = .ok f ∧ (f = true ↔ o.force = true ∨ TakesRaster p) := by
    cases hfo : o.force with
    | true => exact ⟨true, rfl, by simp⟩
    | false => exact ⟨r, by simpa using hr, by simp [hri]⟩
  have e : copiesStep p o j = setOrFail (fun pa v => sCopies.integerSupports pa (intOf v)) (setJob sCopies) (o.copies.map .int) f j := by
    unfold copiesStep
    cases hfo : o.force with
    | true =>
      rw [hfo] at hf
      cases hf
      rfl
    | false =>
      rw [hfo] at hf
      have hf : supportsPrinterRaster p = .ok f := hf
      simp only [hf]
      rfl
  simp only [e]
  unfold setOrFail setOps
  cases hc : o.copies with
  | none => exact ⟨fun e ⟨_, n, a, h, _⟩ => (by rw [hc] at h; cases h), fun _ => ⟨fun ⟨n, h, _⟩ => (by cases h), fun _ => rfl⟩⟩
  | some n =>
    refine ⟨fun e ⟨he, n', a, _, ha, hx⟩ => ?_, fun hm => ?_⟩
    · simp only [Option.map_some, intOf, hj, (C54_integer sCopies p.attrs n).2.2 a ha hx, he]
      rfl
    have hm : ∀ a, KMap.get? p.attrs (ascii "copies-supported") = some a → ∃ l h, a.2 = .range l h := fun a ha => Classical.byContradiction fun hn =>
      hm _ ⟨rfl, n, a, hc, ha, fun l h hr => hn ⟨l, h, hr⟩⟩
    obtain ⟨b, hb, hbi⟩ : ∃ b, sCopies.integerSupports p.attrs n = .ok b ∧ (b = true ↔ CopiesSupported p n) := by
      obtain ⟨h1, h2, _⟩ := C54_integer sCopies p.attrs n
      cases hg : KMap.get? p.attrs (ascii "copies-supported") with
      | none =>
        refine ⟨false, h1 hg, ?_⟩
        simp [CopiesSupported, hg]
      | some a =>
        obtain ⟨l, h, ha⟩ := hm a hg
        obtain ⟨tag, v⟩ := a
        simp only at ha
        subst ha
        refine ⟨_, h2 tag l h hg, ?_⟩
        simp only [CopiesSupported, hg, decide_eq_true_eq, Option.some.injEq, Prod.mk.injEq, Value.range.injEq]
        constructor
        · rintro ⟨h1, h2⟩; exact ⟨tag, l, h, ⟨rfl, rfl, rfl⟩, h1, h2⟩
        · rintro ⟨_, _, _, ⟨_, rfl, rfl⟩, h1, h2⟩; exact ⟨h1, h2⟩
    rw [← hj] at hb
    simp only [Option.map_some, intOf, hb, Outcome.bind_ok]
    constructor
    · rintro ⟨n', h1, h2, h3, h4⟩
      cases h1
      have : b = false := by
        cases b with
        | false => rfl
        | true => exact absurd (hbi.mp rfl) h2
      have hff : f = false := by
        cases f with
        | false => rfl
        | true =>
          rcases hfi.mp rfl with h | h
          · rw [h4] at h; cases h
          · exact absurd h h3
      rw [this, hff]
      rfl
    · intro hn
      have : (b || f) = true := by
        cases b with
        | true => rfl
        | false =>
          cases f with
          | true => rfl
          | false =>
            refine absurd ⟨n, rfl, fun h => (by cases hbi.mpr h), fun h => (by cases hfi.mpr (.inr h)), ?_⟩ hn
            cases hfo : o.force with
            | false => rfl
            | true => cases hfi.mpr (.inl hfo)
      rw [this, if_pos rfl]
      exact setJob_eq sCopies (.int n) j

theorem pages_does (pa : Attrs) (o : Options) :
    ∃ v, ((∃ t, o.pages = some t ∧ ∀ rs, ¬ DenotesRanges t rs) ∨ PagesGive o v) ∧
      Does pa (pagesStep o) { breaks := fun e => e = .outOfRange ∧ TooLarge o, bad := ∃ t, o.pages = some t ∧ ∀ rs, ¬ DenotesRanges t rs, job := setOps sPageRanges v, op := [] } := by
  unfold pagesStep
  cases hp : o.pages with
  | none =>
    exact ⟨none, .inr (.inl ⟨hp, rfl⟩), fun j hj => ⟨fun e ⟨_, t, h, _⟩ => (by rw [hp] at h; cases h), fun _ => ⟨fun ⟨t, h, _⟩ => (by cases h), fun _ => rfl⟩⟩⟩
  | some t =>
    obtain ⟨h0, h1, h2⟩ := C14_exact t
    have hbreaks : ∀ (j : PrintJob) (e : Exn), (e = .outOfRange ∧ TooLarge o) → (do
        let l ← parsePageRange t
        if l = [] then return none
        else do
          let j' ← setJob sPageRanges (.set (l.map (fun r => .range (clamp r.1) (clamp r.2)))) j
          return some j' : Outcome (Option PrintJob)) = .throws e := by
      rintro j e ⟨rfl, t', ht', hl⟩
      rw [hp] at ht'
      cases ht'
      rw [(h0 .outOfRange).mpr ⟨rfl, hl⟩]
      rfl
    by_cases hd : ∃ rs, DenotesRanges t rs
    · obtain ⟨rs, hrs⟩ := hd
      have hne : rs ≠ [] := by
        rintro rfl
        obtain ⟨items, hi, ha, _⟩ := hrs
        cases ha
        exact hi rfl
      have hparse := (h1 rs hne).mpr hrs
      refine ⟨some (rangesValue rs), .inr (.inr ⟨t, rs, hp, hrs, rfl⟩), fun j hj => ⟨hbreaks j, fun _ => ⟨fun ⟨t', h, hn⟩ => ?_, fun _ => ?_⟩⟩⟩
      · cases h; exact absurd hrs (hn rs)
      · simp only [hparse, Outcome.bind_ok]
        rw [if_neg hne]
        have hv : Value.set (rs.map (fun r => .range (clamp r.1) (clamp r.2))) = rangesValue rs := by
          unfold rangesValue
          congr 1
          apply List.map_congr_left
          intro r _
          unfold clamp
          congr 1 <;> split <;> omega
        rw [hv]
        exact setJob_eq sPageRanges (rangesValue rs) j
    · have hd' : ∀ rs, ¬ DenotesRanges t rs := fun rs h => hd ⟨rs, h⟩
      refine ⟨none, .inl ⟨t, rfl, hd'⟩, fun j hj => ⟨hbreaks j, fun hfit => ⟨fun _ => ?_, fun h => absurd ⟨t, rfl, hd'⟩ h⟩⟩⟩
      simp only [h2.mpr ⟨fun hl => hfit _ ⟨rfl, t, hp, hl⟩, hd'⟩, Outcome.bind_ok, if_true]
      rfl

theorem choices_ok {p : Printer} {s : Setting} (ht : ∀ v, Supported p s.name v → v.ty = some s.ty) :
    ∃ l, s.choices p.attrs = .ok l ∧ ∀ v ∈ l, Supported p s.name v := by
  unfold Setting.choices Attrs.getList
  unfold Supported at *
  cases hg : KMap.get? p.attrs (s.name ++ ascii "-supported") with
  | none => exact ⟨[], rfl, by simp⟩
  | some a =>
    rw [hg] at ht
    simp only [declares_asList] at ht ⊢
    exact ⟨asList a.2, getAll_ok ht, fun v h => h⟩

theorem aliases_ok {l : List Value} (h : ∀ v ∈ l, v = .int 3 ∨ v = .int 4 ∨ v = .int 5) : aliases l = .ok () := by
  induction l with
  | nil => rfl
  | cons v l ih =>
    have hl := ih (fun x hx => h x (List.mem_cons_of_mem _ hx))
    rcases h v List.mem_cons_self with rfl | rfl | rfl <;> simp [aliases, hl]

theorem choices_bad {p : Printer} {s : Setting} {x : Value} (hx : Supported p s.name x) (hn : x.ty ≠ some s.ty) : s.choices p.attrs = .throws .badVariant := by
  unfold Setting.choices Attrs.getList
  unfold Supported at hx
  cases hg : KMap.get? p.attrs (s.name ++ ascii "-supported") with
  | none => rw [hg] at hx; exact absurd hx (by simp [Declares])
  | some a =>
    rw [hg, declares_asList] at hx
    exact getAll_bad ⟨x, hx, hn⟩

theorem choices_eq {p : Printer} {s : Setting} (ht : ∀ v, Supported p s.name v → v.ty = some s.ty) :
    ∃ l, s.choices p.attrs = .ok l ∧ ∀ v, v ∈ l ↔ Supported p s.name v := by
  unfold Setting.choices Attrs.getList
  unfold Supported at *
  cases hg : KMap.get? p.attrs (s.name ++ ascii "-supported") with
  | none => exact ⟨[], rfl, by simp [Declares]⟩
  | some a =>
    rw [hg] at ht
    simp only [declares_asList] at ht ⊢
    exact ⟨asList a.2, getAll_ok ht, fun v => Iff.rfl⟩

theorem aliases_bad {l : List Value} {q : Int} (h : .int q ∈ l) (hq : q ≠ 3 ∧ q ≠ 4 ∧ q ≠ 5) : aliases l = .throws .outOfRange := by
  induction l with
  | nil => cases h
  | cons v l ih =>
    rcases List.mem_cons.mp h with rfl | h1
    · rw [aliases, if_neg (by omega)]
    · cases v with
      | int n =>
        rw [aliases]
        split
        · exact ih h1
        · rfl
      | _ => exact ih h1

/-- The list of resolutions has values of other types. -/
def OddResolutions (p : Printer) (e : Exn) : Prop := e = .badVariant ∧ ∃ x, Supported p (ascii "printer-resolution") x ∧ x.ty ≠ some .res

/-- The list of qualities has values of other types, or other qualities. -/
def OddQualities (p : Printer) (e : Exn) : Prop :=
  (e = .badVariant ∧ ∃ x, Supported p (ascii "print-quality") x ∧ x.ty ≠ some .int) ∨
  (e = .outOfRange ∧ ∃ q, Supported p (ascii "print-quality") (.int q) ∧ (q ≠ 3 ∧ q ≠ 4 ∧ q ≠ 5) ∧ ∀ x, Supported p (ascii "print-quality") x → x.ty = some .int)

theorem resolutionList_does (p : Printer) : Does p.attrs resolutionListStep { breaks := OddResolutions p, bad := False, job := [], op := [] } := by
  refine fun j hj => ⟨fun e ⟨he, x, hx, hn⟩ => ?_, fun h => ⟨False.elim, fun _ => ?_⟩⟩
  · unfold resolutionListStep
    rw [hj, choices_bad (s := sResolution) hx hn, he]
    rfl
  · obtain ⟨l, hl, _⟩ := choices_ok (p := p) (s := sResolution) fun x hx => Classical.byContradiction fun hn => h _ ⟨rfl, x, hx, hn⟩
    have e : resolutionListStep j = .ok (some j) := by
      unfold resolutionListStep
      rw [hj, hl]
      rfl
    exact e

theorem qualityList_does (p : Printer) : Does p.attrs qualityListStep { breaks := OddQualities p, bad := False, job := [], op := [] } := by
  refine fun j hj => ⟨fun e he => ?_, fun h => ⟨False.elim, fun _ => ?_⟩⟩
  · unfold qualityListStep
    rcases he with ⟨he, x, hx, hn⟩ | ⟨he, q, hq, hn, ht⟩
    · rw [hj, choices_bad (s := sPrintQuality) hx hn, he]
      rfl
    · obtain ⟨l, hl, hs⟩ := choices_eq (p := p) (s := sPrintQuality) ht
      rw [hj, hl]
      simp only [Outcome.bind_ok, aliases_bad ((hs _).mpr hq) hn, he]
      rfl
  · have ht : ∀ x, Supported p (ascii "print-quality") x → x.ty = some .int := fun x hx => Classical.byContradiction fun hn => h _ (.inl ⟨rfl, x, hx, hn⟩)
    obtain ⟨l, hl, hs⟩ := choices_eq (p := p) (s := sPrintQuality) ht
    have hall : ∀ v ∈ l, v = .int 3 ∨ v = .int 4 ∨ v = .int 5 := by
      intro v hv
      have hv := (hs v).mp hv
      have hty := ht v hv
      cases v with
      | int q =>
        refine Classical.byContradiction fun hn => h _ (.inr ⟨rfl, q, hv, ?_, ht⟩)
        simpa [not_or] using hn
      | _ => cases hty
    have e : qualityListStep j = .ok (some j) := by
      unfold qualityListStep
      rw [hj, hl]
      simp only [Outcome.bind_ok, aliases_ok hall]
      rfl
    exact e

theorem both_does (pa : Attrs) (o : Options) : Does pa (bothStep o) { bad := o.hwResX.isSome ≠ o.hwResY.isSome, job := [], op := [] } := by
  refine nothing_does _ fun j hj => ⟨fun h => ?_, fun h => ?_⟩
  · unfold bothStep; rw [if_pos h]
  · unfold bothStep; rw [if_neg h]

/-- A margin is asked for which can not be set. -/
def NoMargins (p : Printer) (o : Options) : Prop :=
  o.margin.isSome ∧ o.force = false ∧ (sTopMargin.isSupported p.attrs = false ∨ sBottomMargin.isSupported p.attrs = false ∨
      sLeftMargin.isSupported p.attrs = false ∨ sRightMargin.isSupported p.attrs = false)

theorem margin_does (p : Printer) (o : Options) : Does p.attrs (marginStep o) { bad := NoMargins p o, job := [], op := [] } := by
  refine nothing_does _ fun j hj => ⟨fun h => ?_, fun h => ?_⟩
  · unfold marginStep; rw [hj]; exact if_pos h
  · unfold marginStep; rw [hj]; exact if_neg h

/-- What the steps do. -/
def parts (p : Printer) (o : Options) (pages : Option Value) : List Part :=
  [{ breaks := fun e => e = .outOfRange ∧ TooLarge o, bad := ∃ t, o.pages = some t ∧ ∀ rs, ¬ DenotesRanges t rs, job := setOps sPageRanges pages, op := [] },
   { breaks := OddCopies p o, bad := ∃ n, o.copies = some n ∧ ¬ CopiesSupported p n ∧ ¬ TakesRaster p ∧ o.force = false, job := setOps sCopies (o.copies.map .int), op := [] },
   { breaks := Mixed p sMultipleDocumentHandling (o.collatedCopies.map .str), bad := Unsupported p sMultipleDocumentHandling.name (o.collatedCopies.map .str) o.force, job := setOps sMultipleDocumentHandling (o.collatedCopies.map .str), op := [] },
   { breaks := Mixed p sMedia (o.paperSize.map .str), bad := Unsupported p sMedia.name (o.paperSize.map .str) o.force, job := setOps sMedia (o.paperSize.map .str), op := [] },
   { bad := o.hwResX.isSome ≠ o.hwResY.isSome, job := [], op := [] },
   { breaks := OddResolutions p, bad := False, job := [], op := [] },
   { breaks := Mixed p sResolution (bothOf o.hwRes o.hwRes), bad := Unsupported p sResolution.name (bothOf o.hwRes o.hwRes) o.force, job := setOps sResolution (bothOf o.hwRes o.hwRes), op := [] },
   { breaks := Mixed p sResolution (bothOf o.hwResX o.hwResY), bad := Unsupported p sResolution.name (bothOf o.hwResX o.hwResY) o.force, job := setOps sResolution (bothOf o.hwResX o.hwResY), op := [] },
   { breaks := Mixed p sSides (o.sides.map .str), bad := Unsupported p sSides.name (o.sides.map .str) o.force, job := setOps sSides (o.sides.map .str), op := [] },
   { breaks := Mixed p sColorMode (o.colorMode.map .str), bad := Unsupported p sColorMode.name (o.colorMode.map .str) o.force, job := setOps sColorMode (o.colorMode.map .str), op := [] },
   { breaks := OddQualities p, bad := False, job := [], op := [] },
   { breaks := Mixed p sPrintQuality (o.quality.map .int), bad := Unsupported p sPrintQuality.name (o.quality.map .int) o.force, job := setOps sPrintQuality (o.quality.map .int), op := [] },
   { breaks := Mixed p sScaling (o.scaling.map .str), bad := Unsupported p sScaling.name (o.scaling.map .str) o.force, job := setOps sScaling (o.scaling.map .str), op := [] },
   { breaks := Mixed p sDocumentFormat (o.format.map .str), bad := Unsupported p sDocumentFormat.name (o.format.map .str) o.force, job := [], op := setOps sDocumentFormat (o.format.map .str) },
   { breaks := Mixed p sMediaType (o.mediaType.map .str), bad := Unsupported p sMediaType.name (o.mediaType.map .str) o.force, job := setOps sMediaType (o.mediaType.map .str), op := [] },
   { breaks := Mixed p sMediaSource (o.mediaSource.map .str), bad := Unsupported p sMediaSource.name (o.mediaSource.map .str) o.force, job := setOps sMediaSource (o.mediaSource.map .str), op := [] },
   { breaks := Mixed p sOutputBin (o.outputBin.map .str), bad := Unsupported p sOutputBin.name (o.outputBin.map .str) o.force, job := setOps sOutputBin (o.outputBin.map .str), op := [] },
   { breaks := Mixed p sFinishings (o.finishing.map .int), bad := Unsupported p sFinishings.name (o.finishing.map .int) o.force, job := setOps sFinishings (o.finishing.map .int), op := [] },
   { bad := NoMargins p o, job := [], op := [] },
   { breaks := Mixed p sTopMargin (o.margin.map .int), bad := Unsupported p sTopMargin.name (o.margin.map .int) o.force, job := setOps sTopMargin (o.margin.map .int), op := [] },
   { breaks := Mixed p sBottomMargin (o.margin.map .int), bad := Unsupported p sBottomMargin.name (o.margin.map .int) o.force, job := setOps sBottomMargin (o.margin.map .int), op := [] },
   { breaks := Mixed p sLeftMargin (o.margin.map .int), bad := Unsupported p sLeftMargin.name (o.margin.map .int) o.force, job := setOps sLeftMargin (o.margin.map .int), op := [] },
   { breaks := Mixed p sRightMargin (o.margin.map .int), bad := Unsupported p sRightMargin.name (o.margin.map .int) o.force, job := setOps sRightMargin (o.margin.map .int), op := [] },
   { breaks := Mixed p sTopMargin (o.topMargin.map .int), bad := Unsupported p sTopMargin.name (o.topMargin.map .int) o.force, job := setOps sTopMargin (o.topMargin.map .int), op := [] },
   { breaks := Mixed p sBottomMargin (o.bottomMargin.map .int), bad := Unsupported p sBottomMargin.name (o.bottomMargin.map .int) o.force, job := setOps sBottomMargin (o.bottomMargin.map .int), op := [] },
   { breaks := Mixed p sLeftMargin (o.leftMargin.map .int), bad := Unsupported p sLeftMargin.name (o.leftMargin.map .int) o.force, job := setOps sLeftMargin (o.leftMargin.map .int), op := [] },
   { breaks := Mixed p sRightMargin (o.rightMargin.map .int), bad := Unsupported p sRightMargin.name (o.rightMargin.map .int) o.force, job := setOps sRightMargin (o.rightMargin.map .int), op := [] }]

theorem steps_do {p : Printer} (ht : ∀ v, Supported p (ascii "document-format") v → v.ty = some .str) (o : Options) :
    ∃ v, ((∃ t, o.pages = some t ∧ ∀ rs, ¬ DenotesRanges t rs) ∨ PagesGive o v) ∧ DoAll p.attrs (printSteps p o) (parts p o v) := by
  obtain ⟨v, hv, hd⟩ := pages_does p.attrs o
  refine ⟨v, hv, ?_⟩
  unfold printSteps parts
  exact .cons hd <| .cons (copies_does ht o) <| .cons (choose_does _ _ _ _) <| .cons (choose_does _ _ _ _) <|
    .cons (both_does _ o) <| .cons (resolutionList_does p) <| .cons (choose_does _ _ _ _) <| .cons (choose_does _ _ _ _) <|
    .cons (choose_does _ _ _ _) <| .cons (choose_does _ _ _ _) <| .cons (qualityList_does p) <|
    .cons (choose_does _ _ _ _) <| .cons (choose_does _ _ _ _) <| .cons (format_does _ _ _ _) <|
    .cons (choose_does _ _ _ _) <| .cons (choose_does _ _ _ _) <| .cons (choose_does _ _ _ _) <|
    .cons (choose_does _ _ _ _) <| .cons (margin_does p o) <|
    .cons (choose_does _ _ _ _) <| .cons (choose_does _ _ _ _) <| .cons (choose_does _ _ _ _) <| .cons (choose_does _ _ _ _) <|
    .cons (choose_does _ _ _ _) <| .cons (choose_does _ _ _ _) <| .cons (choose_does _ _ _ _) <| .cons (choose_does _ _ _ _) .nil

theorem bothOf_same (r : Option UInt32) : bothOf r r = r.map (fun r => dpi r r) := by cases r <;> rfl

theorem bothOf_eq (x y : Option UInt32) : bothOf x y = match x, y with
    | some x, some y => some (dpi x y)
    | _, _ => none := by cases x <;> cases y <;> rfl

theorem refused_of {p : Printer} {o : Options} (k : Nat) {n : Bytes} {given : Option Value} (hk : (checked o)[k]? = some (n, given))
    (h : Unsupported p n given o.force) : Refused p o := by
  obtain ⟨v, rfl, h2, h3⟩ := h
  exact .value n v (List.mem_of_getElem? hk) h2 h3

theorem supported_of {p : Printer} {s : Setting} {v : Value} (h : Supported p s.name v) : s.isSupported p.attrs = true := by
  unfold Supported at h
  unfold Setting.isSupported
  cases hg : KMap.get? p.attrs (s.name ++ ascii "-supported") with
  | none => rw [hg] at h; exact absurd h (by simp [Declares])
  | some a => simp [KMap.has, hg]

theorem refused_of_margins {p : Printer} {o : Options} (h : NoMargins p o) : Refused p o := by
  obtain ⟨h1, h2, h3⟩ := h
  obtain ⟨m, hm⟩ := Option.isSome_iff_exists.mp h1
  have un : ∀ s : Setting, s.isSupported p.attrs = false → Unsupported p s.name (o.margin.map .int) o.force := fun s hs =>
    ⟨.int m, by rw [hm]; rfl, fun h => (by rw [supported_of h] at hs; cases hs), h2⟩
  rcases h3 with h | h | h | h
  · exact refused_of 13 rfl (un _ h)
  · exact refused_of 14 rfl (un _ h)
  · exact refused_of 15 rfl (un _ h)
  · exact refused_of 16 rfl (un _ h)

theorem refused_iff (p : Printer) (o : Options) (v : Option Value) : Refused p o ↔ ∃ d ∈ parts p o v, d.bad := by
  constructor
  · intro h
    cases h with
    | pages t h1 h2 => exact ⟨_, List.mem_of_getElem? (i := 0) rfl, t, h1, h2⟩
    | oneResolution h => exact ⟨_, List.mem_of_getElem? (i := 4) rfl, h⟩
    | copies n h1 h2 h3 h4 => exact ⟨_, List.mem_of_getElem? (i := 1) rfl, n, h1, h2, h3, h4⟩
    | value n v h1 h2 h3 =>
      have un : ∀ (n' : Bytes) {given}, (n, some v) = (n', given) → Unsupported p n' given o.force := by
        intro n' given h; cases h; exact ⟨v, rfl, h2, h3⟩
      unfold checked at h1
      simp only [List.mem_cons, List.not_mem_nil, or_false] at h1
      rcases h1 with h|h|h|h|h|h|h|h|h|h|h|h|h|h|h|h|h|h|h|h|h
      · exact ⟨_, List.mem_of_getElem? (i := 2) rfl, un _ h⟩
      · exact ⟨_, List.mem_of_getElem? (i := 3) rfl, un _ h⟩
      · exact ⟨_, List.mem_of_getElem? (i := 6) rfl, by rw [bothOf_same]; exact un _ h⟩
      · exact ⟨_, List.mem_of_getElem? (i := 7) rfl, by rw [bothOf_eq]; exact un _ h⟩
      · exact ⟨_, List.mem_of_getElem? (i := 8) rfl, un _ h⟩
      · exact ⟨_, List.mem_of_getElem? (i := 9) rfl, un _ h⟩
      · exact ⟨_, List.mem_of_getElem? (i := 11) rfl, un _ h⟩
      · exact ⟨_, List.mem_of_getElem? (i := 12) rfl, un _ h⟩
      · exact ⟨_, List.mem_of_getElem? (i := 13) rfl, un _ h⟩
      · exact ⟨_, List.mem_of_getElem? (i := 14) rfl, un _ h⟩
      · exact ⟨_, List.mem_of_getElem? (i := 15) rfl, un _ h⟩
      · exact ⟨_, List.mem_of_getElem? (i := 16) rfl, un _ h⟩
      · exact ⟨_, List.mem_of_getElem? (i := 17) rfl, un _ h⟩
      · exact ⟨_, List.mem_of_getElem? (i := 19) rfl, un _ h⟩
      · exact ⟨_, List.mem_of_getElem? (i := 20) rfl, un _ h⟩
      · exact ⟨_, List.mem_of_getElem? (i := 21) rfl, un _ h⟩
      · exact ⟨_, List.mem_of_getElem? (i := 22) rfl, un _ h⟩
      · exact ⟨_, List.mem_of_getElem? (i := 23) rfl, un _ h⟩
      · exact ⟨_, List.mem_of_getElem? (i := 24) rfl, un _ h⟩
      · exact ⟨_, List.mem_of_getElem? (i := 25) rfl, un _ h⟩
      · exact ⟨_, List.mem_of_getElem? (i := 26) rfl, un _ h⟩
  · rintro ⟨d, hd, hb⟩
    unfold parts at hd
    simp only [List.mem_cons, List.not_mem_nil, or_false] at hd
    rcases hd with rfl|rfl|rfl|rfl|rfl|rfl|rfl|rfl|rfl|rfl|rfl|rfl|rfl|rfl|rfl|rfl|rfl|rfl|rfl|rfl|rfl|rfl|rfl|rfl|rfl|rfl|rfl
    · obtain ⟨t, h1, h2⟩ := hb; exact .pages t h1 h2
    · obtain ⟨n, h1, h2, h3, h4⟩ := hb; exact .copies n h1 h2 h3 h4
    · exact refused_of 0 rfl hb
    · exact refused_of 1 rfl hb
    · exact .oneResolution hb
    · exact hb.elim
    · exact refused_of 2 rfl (by rw [← bothOf_same]; exact hb)
    · exact refused_of 3 rfl (by rw [← bothOf_eq]; exact hb)
    · exact refused_of 4 rfl hb
    · exact refused_of 5 rfl hb
    · exact hb.elim
    · exact refused_of 6 rfl hb
    · exact refused_of 7 rfl hb
    · exact refused_of 8 rfl hb
    · exact refused_of 9 rfl hb
    · exact refused_of 10 rfl hb
    · exact refused_of 11 rfl hb
    · exact refused_of 12 rfl hb
    · exact refused_of_margins hb
    · exact refused_of 13 rfl hb
    · exact refused_of 14 rfl hb
    · exact refused_of 15 rfl hb
    · exact refused_of 16 rfl hb
    · exact refused_of 17 rfl hb
    · exact refused_of 18 rfl hb
    · exact refused_of 19 rfl hb
    · exact refused_of 20 rfl hb

theorem breaks_of {p : Printer} {o : Options} (k : Nat) {s : Setting} {given : Option Value} {e : Exn} (hk : (checked o)[k]? = some (s.name, given))
    (ht : ∀ v, given = some v → v.ty = some s.ty) (h : Mixed p s given e) : Breaks p o e := by
  obtain ⟨rfl, h1, x, h2, h3⟩ := h
  obtain ⟨v, rfl⟩ := Option.isSome_iff_exists.mp h1
  exact .value s.name v x (List.mem_of_getElem? hk) h2 (by rw [ht v rfl]; exact h3)

theorem str_ty {o : Option Bytes} {v : Value} (h : o.map Value.str = some v) : v.ty = some .str := by
  cases o <;> cases h; rfl

theorem int_ty {o : Option Int} {v : Value} (h : o.map Value.int = some v) : v.ty = some .int := by
  cases o <;> cases h; rfl

theorem res_ty {x y : Option UInt32} {v : Value} (h : bothOf x y = some v) : v.ty = some .res := by
  cases x <;> cases y <;> cases h; rfl

theorem breaks_iff (p : Printer) (o : Options) (v : Option Value) (e : Exn) : Breaks p o e ↔ ∃ d ∈ parts p o v, d.breaks e := by
  constructor
  · intro h
    cases h with
    | pages h => exact ⟨_, List.mem_of_getElem? (i := 0) rfl, rfl, h⟩
    | copies n a h1 h2 h3 => exact ⟨_, List.mem_of_getElem? (i := 1) rfl, rfl, n, a, h1, h2, h3⟩
    | resolution x h1 h2 => exact ⟨_, List.mem_of_getElem? (i := 5) rfl, rfl, x, h1, h2⟩
    | quality x h1 h2 => exact ⟨_, List.mem_of_getElem? (i := 10) rfl, .inl ⟨rfl, x, h1, h2⟩⟩
    | otherQuality q h1 h2 h3 => exact ⟨_, List.mem_of_getElem? (i := 10) rfl, .inr ⟨rfl, q, h1, h2, h3⟩⟩
    | value n v x h1 h2 h3 =>
      have un : ∀ (s : Setting) {given}, (∀ v, given = some v → v.ty = some s.ty) → (n, some v) = (s.name, given) → Mixed p s given .badVariant := by
        intro s given ht h; cases h; exact ⟨rfl, rfl, x, h2, by rw [← ht v rfl]; exact h3⟩
      unfold checked at h1
      simp only [List.mem_cons, List.not_mem_nil, or_false] at h1
      rcases h1 with h|h|h|h|h|h|h|h|h|h|h|h|h|h|h|h|h|h|h|h|h
      · exact ⟨_, List.mem_of_getElem? (i := 2) rfl, un _ (fun _ => str_ty) h⟩
      · exact ⟨_, List.mem_of_getElem? (i := 3) rfl, un _ (fun _ => str_ty) h⟩
      · exact ⟨_, List.mem_of_getElem? (i := 6) rfl, un _ (fun _ => res_ty) (by rw [bothOf_same]; exact h)⟩
      · exact ⟨_, List.mem_of_getElem? (i := 7) rfl, un _ (fun _ => res_ty) (by rw [bothOf_eq]; exact h)⟩
      · exact ⟨_, List.mem_of_getElem? (i := 8) rfl, un _ (fun _ => str_ty) h⟩
      · exact ⟨_, List.mem_of_getElem? (i := 9) rfl, un _ (fun _ => str_ty) h⟩
      · exact ⟨_, List.mem_of_getElem? (i := 11) rfl, un _ (fun _ => int_ty) h⟩
      · exact ⟨_, List.mem_of_getElem? (i := 12) rfl, un _ (fun _ => str_ty) h⟩
      · exact ⟨_, List.mem_of_getElem? (i := 13) rfl, un _ (fun _ => str_ty) h⟩
      · exact ⟨_, List.mem_of_getElem? (i := 14) rfl, un _ (fun _ => str_ty) h⟩
      · exact ⟨_, List.mem_of_getElem? (i := 15) rfl, un _ (fun _ => str_ty) h⟩
      · exact ⟨_, List.mem_of_getElem? (i := 16) rfl, un _ (fun _ => str_ty) h⟩
      · exact ⟨_, List.mem_of_getElem? (i := 17) rfl, un _ (fun _ => int_ty) h⟩
      · exact ⟨_, List.mem_of_getElem? (i := 19) rfl, un _ (fun _ => int_ty) h⟩
      · exact ⟨_, List.mem_of_getElem? (i := 20) rfl, un _ (fun _ => int_ty) h⟩
      · exact ⟨_, List.mem_of_getElem? (i := 21) rfl, un _ (fun _ => int_ty) h⟩
      · exact ⟨_, List.mem_of_getElem? (i := 22) rfl, un _ (fun _ => int_ty) h⟩
      · exact ⟨_, List.mem_of_getElem? (i := 23) rfl, un _ (fun _ => int_ty) h⟩
      · exact ⟨_, List.mem_of_getElem? (i := 24) rfl, un _ (fun _ => int_ty) h⟩
      · exact ⟨_, List.mem_of_getElem? (i := 25) rfl, un _ (fun _ => int_ty) h⟩
      · exact ⟨_, List.mem_of_getElem? (i := 26) rfl, un _ (fun _ => int_ty) h⟩
  · rintro ⟨d, hd, hb⟩
    unfold parts at hd
    simp only [List.mem_cons, List.not_mem_nil, or_false] at hd
    rcases hd with rfl|rfl|rfl|rfl|rfl|rfl|rfl|rfl|rfl|rfl|rfl|rfl|rfl|rfl|rfl|rfl|rfl|rfl|rfl|rfl|rfl|rfl|rfl|rfl|rfl|rfl|rfl
    · obtain ⟨rfl, h⟩ := hb; exact .pages h
    · obtain ⟨rfl, n, a, h1, h2, h3⟩ := hb; exact .copies n a h1 h2 h3
    · exact breaks_of 0 rfl (fun _ => str_ty) hb
    · exact breaks_of 1 rfl (fun _ => str_ty) hb
    · exact hb.elim
    · obtain ⟨rfl, x, h1, h2⟩ := hb; exact .resolution x h1 h2
    · exact breaks_of 2 (by rw [bothOf_same]; rfl) (fun _ => res_ty) hb
    · exact breaks_of 3 (by rw [bothOf_eq]; rfl) (fun _ => res_ty) hb
    · exact breaks_of 4 rfl (fun _ => str_ty) hb
    · exact breaks_of 5 rfl (fun _ => str_ty) hb
    · rcases hb with ⟨rfl, x, h1, h2⟩ | ⟨rfl, q, h1, h2, h3⟩
      · exact .quality x h1 h2
      · exact .otherQuality q h1 h2 h3
    · exact breaks_of 6 rfl (fun _ => int_ty) hb
    · exact breaks_of 7 rfl (fun _ => str_ty) hb
    · exact breaks_of 8 rfl (fun _ => str_ty) hb
    · exact breaks_of 9 rfl (fun _ => str_ty) hb
    · exact breaks_of 10 rfl (fun _ => str_ty) hb
    · exact breaks_of 11 rfl (fun _ => str_ty) hb
    · exact breaks_of 12 rfl (fun _ => int_ty) hb
    · exact hb.elim
    · exact breaks_of 13 rfl (fun _ => int_ty) hb
    · exact breaks_of 14 rfl (fun _ => int_ty) hb
    · exact breaks_of 15 rfl (fun _ => int_ty) hb
    · exact breaks_of 16 rfl (fun _ => int_ty) hb
    · exact breaks_of 17 rfl (fun _ => int_ty) hb
    · exact breaks_of 18 rfl (fun _ => int_ty) hb
    · exact breaks_of 19 rfl (fun _ => int_ty) hb
    · exact breaks_of 20 rfl (fun _ => int_ty) hb

/-- Setting these, in this order. -/
def opsOf (l : List (Setting × Option Value)) : List Op := (l.map (fun x => setOps x.1 x.2)).flatten

/-- The tags of the settings at a place. -/
def marks (q : Place) (S : List Setting) : List (Option UInt8) := S.map (fun s => if (s.subKey, s.name) = q then some s.tag else none)

/-- The last of the values at the marks. -/
def pick : List (Option UInt8) → List (Option Value) → Option Attr
  | some t :: m, g :: G => (pick m G).or (g.map (fun v => (t, v)))
  | none :: m, _ :: G => pick m G
  | _, _ => none

theorem lastAt_pick (q : Place) : ∀ (S : List Setting) (G : List (Option Value)), lastAt q (opsOf (S.zip G)) = (pick (marks q S) G).map some
  | [], _ => rfl
  | _ :: _, [] => by simp [opsOf, lastAt, marks]; split <;> rfl
  | s :: S, g :: G => by
    have ih := lastAt_pick q S G
    have e : opsOf ((s :: S).zip (g :: G)) = setOps s g ++ opsOf (S.zip G) := rfl
    have m : marks q (s :: S) = (if (s.subKey, s.name) = q then some s.tag else none) :: marks q S := rfl
    rw [e, m]
    cases g with
    | none =>
      show lastAt q (opsOf (S.zip G)) = _
      rw [ih]
      by_cases h : (s.subKey, s.name) = q
      · rw [if_pos h]; simp [pick]
      · rw [if_neg h]; rfl
    | some v =>
      show lastAt q (.set s v :: opsOf (S.zip G)) = _
      rw [lastAt_cons, ih]
      by_cases h : (s.subKey, s.name) = q
      · rw [if_pos h, if_pos (by exact h)]
        cases hp : pick (marks q S) G <;> simp [pick, hp, Op.leaves, Op.setting]
      · rw [if_neg h, if_neg (by exact h)]
        cases hp : pick (marks q S) G <;> simp [pick, hp]

theorem pick_none : ∀ (m : List (Option UInt8)) (G : List (Option Value)), (∀ x ∈ m, x = none) → pick m G = none
  | [], _, _ => rfl
  | none :: m, [], _ => rfl
  | none :: m, _ :: G, h => pick_none m G (fun x hx => h x (List.mem_cons_of_mem _ hx))
  | some t :: m, _, h => by cases h _ List.mem_cons_self

/-- The settings that the steps set in the job's attributes. -/
def order : List Setting :=
  [sPageRanges, sCopies, sMultipleDocumentHandling, sMedia, sResolution, sResolution, sSides, sColorMode, sPrintQuality, sScaling, sMediaType, sMediaSource,
   sOutputBin, sFinishings, sTopMargin, sBottomMargin, sLeftMargin, sRightMargin, sTopMargin, sBottomMargin, sLeftMargin, sRightMargin]

/-- The values that they are set to. -/
def given (o : Options) (pages : Option Value) : List (Option Value) :=
  [pages, o.copies.map .int, o.collatedCopies.map .str, o.paperSize.map .str, bothOf o.hwRes o.hwRes, bothOf o.hwResX o.hwResY, o.sides.map .str,
   o.colorMode.map .str, o.quality.map .int, o.scaling.map .str, o.mediaType.map .str, o.mediaSource.map .str, o.outputBin.map .str, o.finishing.map .int,
   o.margin.map .int, o.margin.map .int, o.margin.map .int, o.margin.map .int,
   o.topMargin.map .int, o.bottomMargin.map .int, o.leftMargin.map .int, o.rightMargin.map .int]

theorem job_ops (p : Printer) (o : Options) (v : Option Value) : ((parts p o v).map (·.job)).flatten = opsOf (order.zip (given o v)) := by
  simp only [parts, order, given, opsOf, List.zip_cons_cons, List.zip_nil_left, List.map_cons, List.map_nil, List.flatten_cons, List.flatten_nil, List.nil_append]

theorem op_ops (p : Printer) (o : Options) (v : Option Value) : ((parts p o v).map (·.op)).flatten = opsOf [(sDocumentFormat, o.format.map .str)] := by
  simp only [parts, opsOf, List.map_cons, List.map_nil, List.flatten_cons, List.flatten_nil, List.nil_append, List.append_nil]

theorem setOps_setting {s : Setting} {g : Option Value} : ∀ x ∈ setOps s g, x.setting = s := by
  cases g <;> simp [setOps, Op.setting]

theorem mem_opsOf {l : List (Setting × Option Value)} {x : Op} (h : x ∈ opsOf l) : ∃ e ∈ l, x.setting = e.1 := by
  unfold opsOf at h
  obtain ⟨y, hy, hx⟩ := List.mem_flatten.mp h
  obtain ⟨e, he, rfl⟩ := List.mem_map.mp hy
  exact ⟨e, he, setOps_setting x hx⟩

theorem job_settings (p : Printer) (o : Options) (v : Option Value) : ∀ d ∈ parts p o v, ∀ x ∈ d.job, x.setting ∈ jobSettings := by
  intro d hd x hx
  have : x ∈ ((parts p o v).map (·.job)).flatten := List.mem_flatten.mpr ⟨d.job, List.mem_map.mpr ⟨d, hd, rfl⟩, hx⟩
  rw [job_ops] at this
  obtain ⟨e, he, h⟩ := mem_opsOf this
  rw [h]
  have sub : ∀ s ∈ order, s ∈ jobSettings := by decide +kernel
  exact sub _ (List.of_mem_zip (a := e.1) (b := e.2) he).1

theorem op_settings (p : Printer) (o : Options) (v : Option Value) : ∀ d ∈ parts p o v, ∀ x ∈ d.op, x.setting ∈ opSettings := by
  intro d hd x hx
  have : x ∈ ((parts p o v).map (·.op)).flatten := List.mem_flatten.mpr ⟨d.op, List.mem_map.mpr ⟨d, hd, rfl⟩, hx⟩
  rw [op_ops] at this
  obtain ⟨e, he, h⟩ := mem_opsOf this
  rw [h, List.mem_singleton.mp he]
  exact List.mem_cons_self

/-- The places of the job's settings, and those beside them. -/
theorem placeOk_job {q : Place} (h : q.1 = [] ∧ q.2 ≠ ascii "media-col" ∨ q.1 = ascii "media-col") : PlaceOk jobSettings q := by
  have e : ∀ s ∈ jobSettings, s.subKey ≠ [] → s.subKey = ascii "media-col" := by decide +kernel
  rcases h with ⟨h1, h2⟩ | h1
  · exact ⟨fun _ s hs hk hq => h2 (by rw [hq, e s hs hk]), fun h => absurd h1 h⟩
  · refine ⟨fun h => ?_, fun _ => ⟨sMediaType, by decide +kernel, by rw [h1]; rfl⟩⟩
    rw [h1] at h
    exact absurd h (by decide +kernel)

theorem placeOk_op {q : Place} (h : q.1 = []) : PlaceOk opSettings q := by
  have e : ∀ s ∈ opSettings, s.subKey = [] := by decide +kernel
  exact ⟨fun _ s hs hk => absurd (e s hs) hk, fun hn => absurd h hn⟩

theorem at_of {G : List (Option Value)} {before after : Attrs} {q : Place} {m : List (Option UInt8)} {t : UInt8} {g : Option Value}
    (hat : ∀ q, PlaceOk jobSettings q → at_ after q = (lastAt q (opsOf (order.zip G))).getD (at_ before q)) (hm : marks q order = m)
    (hq : q.1 = [] ∧ q.2 ≠ ascii "media-col" ∨ q.1 = ascii "media-col") (hp : pick m G = g.map (fun v => (t, v))) :
    at_ after q = (g.map (fun v => (t, v))).or (at_ before q) := by
  rw [hat q (placeOk_job hq), lastAt_pick, hm, hp]
  cases g <;> rfl

theorem resolution_eq (o : Options) : ((none : Option Attr).or ((bothOf o.hwResX o.hwResY).map (fun v => ((0x32 : UInt8), v)))).or
    ((bothOf o.hwRes o.hwRes).map (fun v => ((0x32 : UInt8), v))) = (resolution o).map (fun v => ((0x32 : UInt8), v)) := by
  unfold resolution
  cases o.hwResX <;> cases o.hwResY <;> cases o.hwRes <;> rfl

theorem or_eq (a b : Option Int) (t : UInt8) : ((none : Option Attr).or ((a.map Value.int).map (fun v => (t, v)))).or ((b.map Value.int).map (fun v => (t, v))) =
    ((a.or b).map Value.int).map (fun v => (t, v)) := by cases a <;> cases b <;> rfl

theorem job_become (o : Options) (v : Option Value) {before after : Attrs}
    (hat : ∀ q, PlaceOk jobSettings q → at_ after q = (lastAt q (opsOf (order.zip (given o v)))).getD (at_ before q)) : Become (wanted o v) before after := by
  refine ⟨fun x hx => ?_, fun q hq hk => ?_⟩
  · unfold wanted at hx
    simp only [List.mem_cons, List.not_mem_nil, or_false] at hx
    rcases hx with rfl|rfl|rfl|rfl|rfl|rfl|rfl|rfl|rfl|rfl|rfl|rfl|rfl|rfl|rfl|rfl|rfl
    · exact at_of hat (by decide +kernel : marks ([], ascii "page-ranges") order = [some 0x33, none, none, none, none, none, none, none, none, none, none, none, none, none, none, none, none, none, none, none, none, none]) (by dsimp only; decide +kernel) (by simp only [pick, given, Option.none_or])
    · exact at_of hat (by decide +kernel : marks ([], ascii "copies") order = [none, some 0x21, none, none, none, none, none, none, none, none, none, none, none, none, none, none, none, none, none, none, none, none]) (by dsimp only; decide +kernel) (by simp only [pick, given, Option.none_or])
    · exact at_of hat (by decide +kernel : marks ([], ascii "multiple-document-handling") order = [none, none, some 0x44, none, none, none, none, none, none, none, none, none, none, none, none, none, none, none, none, none, none, none]) (by dsimp only; decide +kernel) (by simp only [pick, given, Option.none_or])
    · exact at_of hat (by decide +kernel : marks ([], ascii "media") order = [none, none, none, some 0x44, none, none, none, none, none, none, none, none, none, none, none, none, none, none, none, none, none, none]) (by dsimp only; decide +kernel) (by simp only [pick, given, Option.none_or])
    · exact at_of hat (by decide +kernel : marks ([], ascii "printer-resolution") order = [none, none, none, none, some 0x32, some 0x32, none, none, none, none, none, none, none, none, none, none, none, none, none, none, none, none]) (by dsimp only; decide +kernel) (by simp only [pick, given, resolution_eq])
    · exact at_of hat (by decide +kernel : marks ([], ascii "sides") order = [none, none, none, none, none, none, some 0x44, none, none, none, none, none, none, none, none, none, none, none, none, none, none, none]) (by dsimp only; decide +kernel) (by simp only [pick, given, Option.none_or])
    · exact at_of hat (by decide +kernel : marks ([], ascii "print-color-mode") order = [none, none, none, none, none, none, none, some 0x44, none, none, none, none, none, none, none, none, none, none, none, none, none, none]) (by dsimp only; decide +kernel) (by simp only [pick, given, Option.none_or])
    · exact at_of hat (by decide +kernel : marks ([], ascii "print-quality") order = [none, none, none, none, none, none, none, none, some 0x23, none, none, none, none, none, none, none, none, none, none, none, none, none]) (by dsimp only; decide +kernel) (by simp only [pick, given, Option.none_or])
    · exact at_of hat (by decide +kernel : marks ([], ascii "print-scaling") order = [none, none, none, none, none, none, none, none, none, some 0x44, none, none, none, none, none, none, none, none, none, none, none, none]) (by dsimp only; decide +kernel) (by simp only [pick, given, Option.none_or])
    · exact at_of hat (by decide +kernel : marks (ascii "media-col", ascii "media-type") order = [none, none, none, none, none, none, none, none, none, none, some 0x44, none, none, none, none, none, none, none, none, none, none, none]) (by dsimp only; decide +kernel) (by simp only [pick, given, Option.none_or])
    · exact at_of hat (by decide +kernel : marks (ascii "media-col", ascii "media-source") order = [none, none, none, none, none, none, none, none, none, none, none, some 0x44, none, none, none, none, none, none, none, none, none, none]) (by dsimp only; decide +kernel) (by simp only [pick, given, Option.none_or])
    · exact at_of hat (by decide +kernel : marks ([], ascii "output-bin") order = [none, none, none, none, none, none, none, none, none, none, none, none, some 0x44, none, none, none, none, none, none, none, none, none]) (by dsimp only; decide +kernel) (by simp only [pick, given, Option.none_or])
    · exact at_of hat (by decide +kernel : marks ([], ascii "finishings") order = [none, none, none, none, none, none, none, none, none, none, none, none, none, some 0x23, none, none, none, none, none, none, none, none]) (by dsimp only; decide +kernel) (by simp only [pick, given, Option.none_or])
    · exact at_of hat (by decide +kernel : marks (ascii "media-col", ascii "media-top-margin") order = [none, none, none, none, none, none, none, none, none, none, none, none, none, none, some 0x21, none, none, none, some 0x21, none, none, none]) (by dsimp only; decide +kernel) (by simp only [pick, given, or_eq])
    · exact at_of hat (by decide +kernel : marks (ascii "media-col", ascii "media-bottom-margin") order = [none, none, none, none, none, none, none, none, none, none, none, none, none, none, none, some 0x21, none, none, none, some 0x21, none, none]) (by dsimp only; decide +kernel) (by simp only [pick, given, or_eq])
    · exact at_of hat (by decide +kernel : marks (ascii "media-col", ascii "media-left-margin") order = [none, none, none, none, none, none, none, none, none, none, none, none, none, none, none, none, some 0x21, none, none, none, some 0x21, none]) (by dsimp only; decide +kernel) (by simp only [pick, given, or_eq])
    · exact at_of hat (by decide +kernel : marks (ascii "media-col", ascii "media-right-margin") order = [none, none, none, none, none, none, none, none, none, none, none, none, none, none, none, none, none, some 0x21, none, none, none, some 0x21]) (by dsimp only; decide +kernel) (by simp only [pick, given, or_eq])
  · rw [hat q (placeOk_job hk), lastAt_pick, pick_none]
    · rfl
    · intro y hy
      obtain ⟨s, hs, rfl⟩ := List.mem_map.mp hy
      have places : ∀ s ∈ order, (s.subKey, s.name) ∈ (wanted {} none).map (·.1) := by decide +kernel
      have same : (wanted {} none).map (·.1) = (wanted o v).map (·.1) := by
        simp only [wanted, List.map_cons, List.map_nil]
      have := places s hs
      rw [same] at this
      obtain ⟨x, hx, hxs⟩ := List.mem_map.mp this
      rw [if_neg (fun h => hq x hx (hxs.trans h))]

theorem op_become (o : Options) {before after : Attrs}
    (hat : ∀ q, PlaceOk opSettings q → at_ after q = (lastAt q (opsOf [(sDocumentFormat, o.format.map .str)])).getD (at_ before q)) :
    ∀ n, KMap.get? after n = if n = ascii "document-format" ∧ o.format.isSome then o.format.map (fun f => (0x49, .str f)) else KMap.get? before n := by
  intro n
  have h := hat ([], n) (placeOk_op rfl)
  have e := lastAt_pick ([], n) [sDocumentFormat] [o.format.map .str]
  rw [show opsOf [(sDocumentFormat, o.format.map .str)] = opsOf ([sDocumentFormat].zip [o.format.map .str]) from rfl, e] at h
  simp only [at_, if_true] at h
  rw [h]
  by_cases hn : n = ascii "document-format"
  · subst hn
    cases o.format <;> rfl
  · rw [if_neg (fun h => hn h.1)]
    have : marks ([], n) [sDocumentFormat] = [none] := by
      simp only [marks, List.map_cons, List.map_nil]
      rw [if_neg]
      intro h
      exact hn (Prod.mk.inj h).2.symm
    rw [this]
    rfl

theorem job_new {p : Printer} {j : PrintJob} (h : createJob p = .ok j) :
    j.printerAttrs = p.attrs ∧ j.jobAttrs = [] ∧ j.opAttrs = [] ∧ j.oneStage = false := by
  unfold createJob at h
  obtain ⟨l, _, h⟩ := Outcome.bind_eq_ok.mp h
  cases h
  exact ⟨rfl, rfl, rfl, rfl⟩

theorem restored_printer {w : World} {o : Options} {j j0 : PrintJob} (h : restored w o j = .ok j0) :
    ∃ a b, j0 = { j with opAttrs := a, jobAttrs := b } := by
  unfold restored at h
  split at h
  · cases h; exact ⟨j.opAttrs, j.jobAttrs, rfl⟩
  · obtain ⟨⟨a, b⟩, _, h⟩ := Outcome.bind_eq_ok.mp h
    cases h
    exact ⟨a, b, rfl⟩

theorem prepare_steps {w : World} {p : Printer} {o : Options} {inFile t : Bytes} {j j0 : PrintJob} (hj : createJob p = .ok j) (hr : restored w o j = .ok j0)
    (ht : inputType w o inFile = some t) {r : Option PrintJob} (h : runSteps (printSteps p o) (flags o j0) = .ok r) :
    prepare w p o inFile = .ok (r.map (fun j' => (j', t))) := by
  unfold prepare
  simp only [hj, Outcome.bind_ok, hr, ht, h]
  cases r <;> rfl

theorem inputType_of {w : World} {o : Options} {inFile t : Bytes} (h : TypeIs w o inFile t) : inputType w o inFile = some t := by
  unfold inputType
  rcases h with h | ⟨h, hf, data, m, hd, hm, rfl⟩
  · rw [h]
  · rw [h]
    have e : mimeName m = typeName m ∧ typeName m ≠ [] ∧ typeName m ≠ octetStream := by
      obtain ⟨b, hb, _⟩ := hm
      have all : ∀ x ∈ magics, mimeName x.1 = typeName x.1 ∧ typeName x.1 ≠ [] ∧ typeName x.1 ≠ octetStream := by decide +kernel
      exact all _ hb
    simp only [if_pos hf, hd, Option.getD_some, C47_recognised hm, e.1]
    rw [if_neg (fun h => h.elim e.2.1 e.2.2)]

theorem inputType_none {w : World} {o : Options} {inFile : Bytes} (h : NoType w o inFile) : inputType w o inFile = none := by
  obtain ⟨h1, h2⟩ := h
  unfold inputType
  rw [h1]
  have e : ∀ t, (t = [] ∨ t = octetStream) → (if t = [] ∨ t = octetStream then none else some t) = (none : Option Bytes) := fun t h => if_pos h
  apply e
  by_cases hf : inFile = ascii "-"
  · rw [if_neg (fun h => h hf)]; exact .inl rfl
  · rw [if_pos hf]
    have h2 := h2.resolve_left hf
    cases hr : w.files.read inFile with
    | none => exact .inl (by decide +kernel)
    | some data =>
      obtain ⟨hm, hmm, hii⟩ := h2 data hr
      rw [Option.getD_some]
      rcases getMimeType_looked data with ⟨m, h3, h4⟩ | ⟨h3, _⟩
      · exfalso
        have all : ∀ x ∈ looked, x ∈ magics ∨ x.2 = ascii "MM" ∨ x.2 = ascii "II*" := by decide +kernel
        rcases all _ h3 with h | h | h
        · exact hm _ ⟨m, h, h4⟩
        · exact hmm (h ▸ h4)
        · exact hii (h ▸ h4)
      · rw [h3]
        split
        · exact .inl rfl
        · exact .inr rfl

theorem inputType_some {w : World} {o : Options} {inFile : Bytes} (h : ¬ NoType w o inFile) : ∃ t, inputType w o inFile = some t := by
  cases hi : inputType w o inFile with
  | some t => exact ⟨t, rfl⟩
  | none =>
    refine absurd ?_ h
    unfold inputType at hi
    cases hm : o.mimeType with
    | some t => rw [hm] at hi; cases hi
    | none =>
      rw [hm] at hi
      refine ⟨hm, ?_⟩
      by_cases hf : inFile = ascii "-"
      · exact .inl hf
      · refine .inr fun data hd => ?_
        simp only [if_pos hf, hd, Option.getD_some] at hi
        split at hi
        · rename_i ht
          rcases getMimeType_looked data with ⟨m, h3, _⟩ | ⟨_, h4⟩
          · have all : ∀ x ∈ looked, mimeName x.1 ≠ [] ∧ mimeName x.1 ≠ octetStream := by decide +kernel
            exact (ht.elim (all _ h3).1 (all _ h3).2).elim
          · have all : ∀ x ∈ magics, ∃ y ∈ looked, y.2 <+: x.2 := by decide +kernel
            refine ⟨fun m ⟨b, hb, hp⟩ => ?_, h4 _ _ (by decide +kernel : (Mime.tiff, ascii "MM") ∈ looked), h4 _ _ (by decide +kernel : (Mime.tiff, ascii "II*") ∈ looked)⟩
            obtain ⟨y, hy, hyp⟩ := all _ hb
            exact h4 _ _ hy (hyp.trans hp)
        · cases hi

theorem print_none {w : World} {p : Printer} {o : Options} {inFile : Bytes} (h : prepare w p o inFile = .ok none) : FailsAtOnce w (printCommand w p o inFile) := by
  unfold FailsAtOnce printCommand
  rw [h]
  rfl

theorem large_not_ranges {text : Bytes} (h : Verif.Spec.LargeFirst text) (rs : List (Nat × Nat)) : ¬ DenotesRanges text rs := by
  intro hd
  obtain ⟨h1, h2, _⟩ := C14_exact text
  have hne : rs ≠ [] := by
    rintro rfl
    obtain ⟨items, h3, h4, _⟩ := hd
    cases h4
    exact h3 rfl
  have e := (h1 .outOfRange).mpr ⟨rfl, h⟩
  rw [(h2 rs hne).mpr hd] at e
  cases e

/-- A job can only be made for a printer whose formats are texts. -/
theorem formats_typed {p : Printer} {j : PrintJob} (h : createJob p = .ok j) : ∀ v, Supported p (ascii "document-format") v → v.ty = some .str := by
  unfold createJob additionalDocumentFormats documentFormats strList at h
  obtain ⟨_, h, _⟩ := Outcome.bind_eq_ok.mp h
  obtain ⟨_, h, _⟩ := Outcome.bind_eq_ok.mp h
  obtain ⟨l, h, _⟩ := Outcome.bind_eq_ok.mp h
  intro x hx
  refine Classical.byContradiction fun hn => ?_
  have e : ascii "document-format" ++ ascii "-supported" = ascii "document-format-supported" := by decide +kernel
  have := choices_bad (s := sDocumentFormat) hx hn
  unfold Setting.choices at this
  rw [show sDocumentFormat.name ++ ascii "-supported" = ascii "document-format-supported" from e] at this
  rw [show Attrs.getList p.attrs .str (ascii "document-format-supported") = _ from this] at h
  cases h

/-- What `print` makes of its options, by the operations on the attributes. -/
theorem prepare_cases {w : World} {p : Printer} {o : Options} {inFile t : Bytes} {j j0 : PrintJob}
    (hj : createJob p = .ok j) (hr : restored w o j = .ok j0)
    (hc : CollectionsOk jobSettings j0.jobAttrs) (hs : KMap.Sorted j0.opAttrs) (hty : inputType w o inFile = some t) :
    (¬ Refused p o ∧ (∀ e, ¬ Breaks p o e) ∧
      ∃ v a b, prepare w p o inFile = .ok (some ({ flags o j0 with jobAttrs := a, opAttrs := b }, t)) ∧ PagesGive o v ∧
        applyAll (opsOf (order.zip (given o v))) j0.jobAttrs = .ok a ∧ applyAll (opsOf [(sDocumentFormat, o.format.map .str)]) j0.opAttrs = .ok b) ∨
    (Refused p o ∧ prepare w p o inFile = .ok none) ∨ ∃ e, Breaks p o e ∧ prepare w p o inFile = .throws e := by
  obtain ⟨v, hv, hd⟩ := steps_do (formats_typed hj) o
  obtain ⟨a0, b0, h0⟩ := restored_printer hr
  have hnew := job_new hj
  have hpa : (flags o j0).printerAttrs = p.attrs := by rw [h0]; exact hnew.1
  have hco : CollectionsOk opSettings (flags o j0).opAttrs := ⟨hs, fun s hs hk => by
    have e : ∀ s ∈ opSettings, s.subKey = [] := by decide +kernel
    exact absurd (e s hs) hk⟩
  rcases runSteps_parts hd (j := flags o j0) hpa hc hco (job_settings p o v) (op_settings p o v) with ⟨hall, a, b, ha, hb, hsteps⟩ | ⟨d, hd, hbad, hsteps⟩ | ⟨d, hd, e, hbr, hsteps⟩
  · have hn : ¬ Refused p o := fun h => by
      obtain ⟨d, hd, hbad⟩ := (refused_iff p o v).mp h
      exact (hall d hd).2 hbad
    have hpages : PagesGive o v := by
      rcases hv with ⟨text, h1, h2⟩ | h
      · exact absurd (.pages text h1 h2) hn
      · exact h
    refine .inl ⟨hn, fun e h => ?_, v, a, b, prepare_steps hj hr hty hsteps, hpages, by rw [job_ops] at ha; exact ha, by rw [op_ops] at hb; exact hb⟩
    obtain ⟨d, hd, hbr⟩ := (breaks_iff p o v e).mp h
    exact (hall d hd).1 e hbr
  · exact .inr (.inl ⟨(refused_iff p o v).mpr ⟨d, hd, hbad⟩, prepare_steps hj hr hty hsteps⟩)
  · refine .inr (.inr ⟨e, (breaks_iff p o v e).mpr ⟨d, hd, hbr⟩, ?_⟩)
    unfold prepare
    simp only [hj, Outcome.bind_ok, hr, hty, hsteps]
    rfl

theorem prepared {w : World} {p : Printer} {o : Options} {inFile t : Bytes} {j j0 : PrintJob} (hb : ∀ e, ¬ Breaks p o e)
    (hj : createJob p = .ok j) (hr : restored w o j = .ok j0)
    (hc : CollectionsOk jobSettings j0.jobAttrs) (hs : KMap.Sorted j0.opAttrs) (hty : inputType w o inFile = some t) (hn : ¬ Refused p o) :
    ∃ v a b, prepare w p o inFile = .ok (some ({ flags o j0 with jobAttrs := a, opAttrs := b }, t)) ∧ PagesGive o v ∧
      applyAll (opsOf (order.zip (given o v))) j0.jobAttrs = .ok a ∧ applyAll (opsOf [(sDocumentFormat, o.format.map .str)]) j0.opAttrs = .ok b := by
  rcases prepare_cases hj hr hc hs hty with ⟨_, _, h⟩ | ⟨h, _⟩ | ⟨e, h, _⟩
  · exact h
  · exact absurd h hn
  · exact absurd h (hb e)

/-- What the operations on the job's attributes leave. -/
theorem job_applied {o : Options} {v : Option Value} {a0 a : Attrs} (hc : CollectionsOk jobSettings a0)
    (ha : applyAll (opsOf (order.zip (given o v))) a0 = .ok a) : CollectionsOk jobSettings a ∧ Become (wanted o v) a0 a := by
  obtain ⟨a', ha', hc', hat⟩ := applyAll_spec job_independent (opsOf (order.zip (given o v))) (fun x hx => by
    obtain ⟨e, he, h⟩ := mem_opsOf hx
    rw [h]
    have sub : ∀ s ∈ order, s ∈ jobSettings := by decide +kernel
    exact sub _ (List.of_mem_zip (a := e.1) (b := e.2) he).1) hc
  have : a = a' := by
    have := ha.symm.trans ha'
    cases this; rfl
  subst this
  exact ⟨hc', job_become o v hat⟩

/-- What the operations on the attributes of the operation leave. -/
theorem op_applied {o : Options} {b0 b : Attrs} (hs : KMap.Sorted b0) (hb : applyAll (opsOf [(sDocumentFormat, o.format.map .str)]) b0 = .ok b) :
    KMap.Sorted b ∧ ∀ n, KMap.get? b n = if n = ascii "document-format" ∧ o.format.isSome then o.format.map (fun f => (0x49, .str f)) else KMap.get? b0 n := by
  have hco : CollectionsOk opSettings b0 := ⟨hs, fun s hs hk => by
    have e : ∀ s ∈ opSettings, s.subKey = [] := by decide +kernel
    exact absurd (e s hs) hk⟩
  obtain ⟨b', hb', hc', hat⟩ := applyAll_spec op_independent (opsOf [(sDocumentFormat, o.format.map .str)]) (fun x hx => by
    obtain ⟨e, he, h⟩ := mem_opsOf hx
    rw [h, List.mem_singleton.mp he]
    exact List.mem_cons_self) hco
  have : b = b' := by
    have := hb.symm.trans hb'
    cases this; rfl
  subst this
  exact ⟨hc'.1, op_become o hat⟩

/-- **C75.** The options of `print` become the attributes of the job that they stand for: each value that is asked for is at its place, everything else is
as it was before (nothing, or what was saved for the printer). -/
theorem C75_set (w : World) (p : Printer) (o : Options) (inFile t : Bytes) (j j0 : PrintJob)
    (hj : createJob p = .ok j) (hr : restored w o j = .ok j0)
    (hc : CollectionsOk jobSettings j0.jobAttrs) (hs : KMap.Sorted j0.opAttrs) (hty : TypeIs w o inFile t) (hn : ¬ Refused p o) (hb : ∀ e, ¬ Breaks p o e) :
    ∃ j' pages, prepare w p o inFile = .ok (some (j', t)) ∧ PagesGive o pages ∧ Become (wanted o pages) j0.jobAttrs j'.jobAttrs ∧
      (∀ n, KMap.get? j'.opAttrs n = if n = ascii "document-format" ∧ o.format.isSome then o.format.map (fun f => (0x49, .str f)) else KMap.get? j0.opAttrs n) ∧
      j' = { j0 with jobAttrs := j'.jobAttrs, opAttrs := j'.opAttrs, oneStage := o.oneStage } := by
  obtain ⟨v, a, b, hp, hpages, ha, hb⟩ := prepared hb hj hr hc hs (inputType_of hty) hn
  refine ⟨_, v, hp, hpages, (job_applied hc ha).2, (op_applied hs hb).2, ?_⟩
  obtain ⟨a0, b0, h0⟩ := restored_printer hr
  have h1 : j0.oneStage = false := by rw [h0]; exact (job_new hj).2.2.2
  unfold flags
  rw [h1]
  cases o.oneStage <;> rfl

theorem prepare_noType {w : World} {p : Printer} {o : Options} {inFile : Bytes} {j j0 : PrintJob} (hj : createJob p = .ok j) (hr : restored w o j = .ok j0)
    (h : NoType w o inFile) : prepare w p o inFile = .ok none := by
  unfold prepare
  simp only [hj, Outcome.bind_ok, hr, inputType_none h]
  rfl

/-- **C75.** Whatever the printer says, there are three ways on: the command line is refused for one of the reasons to refuse it; or there is an exception, for one of
the reasons for it; or there is none of these reasons, and there is a job. -/
theorem C75_any (w : World) (p : Printer) (o : Options) (inFile : Bytes) (j j0 : PrintJob)
    (hj : createJob p = .ok j) (hr : restored w o j = .ok j0)
    (hc : CollectionsOk jobSettings j0.jobAttrs) (hs : KMap.Sorted j0.opAttrs) :
    ((NoType w o inFile ∨ Refused p o) ∧ prepare w p o inFile = .ok none ∧ FailsAtOnce w (printCommand w p o inFile)) ∨
    (∃ e, ¬ NoType w o inFile ∧ Breaks p o e ∧ prepare w p o inFile = .throws e ∧ printCommand w p o inFile = ⟨[], .throws e⟩) ∨
    (¬ NoType w o inFile ∧ ¬ Refused p o ∧ (∀ e, ¬ Breaks p o e) ∧ ∃ job, prepare w p o inFile = .ok (some job)) := by
  by_cases hno : NoType w o inFile
  · have h := prepare_noType (p := p) hj hr hno
    exact .inl ⟨.inl hno, h, print_none h⟩
  · obtain ⟨t, hi⟩ := inputType_some hno
    rcases prepare_cases hj hr hc hs hi with ⟨h1, h2, v, a, b, h3, _⟩ | ⟨h1, h2⟩ | ⟨e, h1, h2⟩
    · exact .inr (.inr ⟨hno, h1, h2, _, h3⟩)
    · exact .inl ⟨.inr h1, h2, print_none h2⟩
    · refine .inr (.inl ⟨e, hno, h1, h2, ?_⟩)
      unfold printCommand
      rw [h2]
      rfl

/-- **C75.** A command line of `print` is refused before anything is sent when the printer does not support a value that is asked for (unless forced), when
page ranges or resolution are wrong, or when the type of the input can not be told. It may be that it ends with an exception instead of a message, when there
is a reason for that as well; so it is when the page ranges have a number of 2^64 or more before anything else that is wrong with them. -/
theorem C75_refused (w : World) (p : Printer) (o : Options) (inFile : Bytes) (j j0 : PrintJob)
    (hj : createJob p = .ok j) (hr : restored w o j = .ok j0)
    (hc : CollectionsOk jobSettings j0.jobAttrs) (hs : KMap.Sorted j0.opAttrs) (h : Refused p o ∨ NoType w o inFile) :
    (NoType w o inFile ∨ (∀ e, ¬ Breaks p o e) → FailsAtOnce w (printCommand w p o inFile)) ∧
    (FailsAtOnce w (printCommand w p o inFile) ∨ ∃ e, Breaks p o e ∧ printCommand w p o inFile = ⟨[], .throws e⟩) ∧
    (¬ NoType w o inFile → TooLarge o → printCommand w p o inFile = ⟨[], .throws .outOfRange⟩) := by
  refine ⟨fun hq => ?_, ?_, fun hno hbig => ?_⟩
  · rcases C75_any w p o inFile j j0 hj hr hc hs with ⟨_, _, h1⟩ | ⟨e, h1, h2, _⟩ | ⟨h1, h2, _⟩
    · exact h1
    · exact absurd h2 (hq.resolve_left h1 e)
    · exact absurd h (not_or.mpr ⟨h2, h1⟩)
  · rcases C75_any w p o inFile j j0 hj hr hc hs with ⟨_, _, h1⟩ | ⟨e, _, h2, _, h3⟩ | ⟨h1, h2, _⟩
    · exact .inl h1
    · exact .inr ⟨e, h2, h3⟩
    · exact absurd h (not_or.mpr ⟨h2, h1⟩)
  · obtain ⟨text, h1, h2⟩ := hbig
    have g := ((C14_exact text).1 .outOfRange).mpr ⟨rfl, h2⟩
    obtain ⟨r, hcons⟩ : ∃ r, printSteps p o = pagesStep o :: r := ⟨_, rfl⟩
    obtain ⟨t, hi⟩ := inputType_some hno
    have hprep : prepare w p o inFile = .throws .outOfRange := by
      unfold prepare
      simp only [hj, Outcome.bind_ok, hr, hi, hcons, runSteps, pagesStep, h1, g]
      rfl
    unfold printCommand
    rw [hprep]
    rfl

/-- A command line that ends with 0 is not refused, and breaks nothing. -/
theorem not_refused {w : World} {p : Printer} {o : Options} {inFile : Bytes} {j j0 : PrintJob} (hj : createJob p = .ok j) (hr : restored w o j = .ok j0)
    (hc : CollectionsOk jobSettings j0.jobAttrs) (hs : KMap.Sorted j0.opAttrs) {e : End} (he : (printCommand w p o inFile).out = .ok e) (hcode : e.code = 0) :
    ¬ Refused p o ∧ ∀ e, ¬ Breaks p o e := by
  rcases C75_any w p o inFile j j0 hj hr hc hs with ⟨_, _, h⟩ | ⟨e', _, _, _, h⟩ | ⟨_, h1, h2, _⟩
  · unfold FailsAtOnce at h
    rw [h] at he
    cases he
    cases hcode
  · rw [h] at he
    cases he
  · exact ⟨h1, h2⟩

/-- A printer with attributes of the right types, and with the qualities that there are, breaks nothing. -/
theorem typed_breaks {p : Printer} (ht : Typed p) {o : Options} (hp : ¬ TooLarge o) : ∀ e, ¬ Breaks p o e := by
  intro e h
  cases h with
  | pages h => exact hp h
  | copies n a h1 h2 h3 =>
    obtain ⟨l, h, hr⟩ := ht.copies a h2
    exact h3 l h hr
  | resolution x h1 h2 => exact h2 (ht.resolutions x h1)
  | quality x h1 h2 => exact h2 (ht.ints _ (by decide +kernel) x h1)
  | otherQuality q h1 h2 =>
    rcases ht.qualities _ h1 with h | h | h <;> cases h <;> simp at h2
  | value n v x h1 h2 h3 =>
    unfold checked at h1
    simp only [List.mem_cons, List.not_mem_nil, or_false, Prod.mk.injEq] at h1
    rcases h1 with ⟨rfl, h⟩|⟨rfl, h⟩|⟨rfl, h⟩|⟨rfl, h⟩|⟨rfl, h⟩|⟨rfl, h⟩|⟨rfl, h⟩|⟨rfl, h⟩|⟨rfl, h⟩|⟨rfl, h⟩|⟨rfl, h⟩|⟨rfl, h⟩|⟨rfl, h⟩|⟨rfl, h⟩|⟨rfl, h⟩|⟨rfl, h⟩|⟨rfl, h⟩|⟨rfl, h⟩|⟨rfl, h⟩|⟨rfl, h⟩|⟨rfl, h⟩
    all_goals first
      | exact h3 (by rw [ht.texts _ (by decide +kernel) x h2, str_ty h.symm])
      | exact h3 (by rw [ht.ints _ (by decide +kernel) x h2, int_ty h.symm])
      | exact h3 (by rw [ht.resolutions x h2, res_ty (x := o.hwRes) (y := o.hwRes) (by rw [bothOf_same]; exact h.symm)])
      | exact h3 (by rw [ht.resolutions x h2, res_ty (x := o.hwResX) (y := o.hwResY) (by rw [bothOf_eq]; exact h.symm)])

/-- **C75.** With `--save`, or when nothing is saved for the printer, a job starts without attributes. -/
theorem C75_start (w : World) (p : Printer) (o : Options) (j : PrintJob) (hj : createJob p = .ok j)
    (h : o.save = true ∨ KMap.get? p.attrs (ascii "printer-uuid") = none ∨
      ∃ tag uuid, KMap.get? p.attrs (ascii "printer-uuid") = some (tag, .str uuid) ∧ w.store uuid = none) :
    restored w o j = .ok j ∧ j.jobAttrs = [] ∧ j.opAttrs = [] := by
  have hn := job_new hj
  refine ⟨?_, hn.2.1, hn.2.2.1⟩
  unfold restored
  cases hs : o.save with
  | true => rfl
  | false =>
    rw [hs] at h
    have e : restoreSettings j.printerAttrs j.opAttrs j.jobAttrs w.store = .ok (j.opAttrs, j.jobAttrs) := by
      unfold restoreSettings
      rcases h.resolve_left (by decide) with h1 | ⟨tag, uuid, h1, h2⟩
      · rw [hn.1, h1]
      · rw [hn.1, h1]
        simp only [h2]
    rw [e]
    rfl

/-- The values that are declared are of this type. -/
def areOf (pa : Attrs) (t : Ty) (n : Bytes) : Bool :=
  match KMap.get? pa (n ++ ascii "-supported") with
  | some a => (asList a.2).all (fun v => v.ty == some t)
  | none => true

theorem areOf_eq {p : Printer} {t : Ty} {n : Bytes} (h : areOf p.attrs t n = true) : ∀ v, Supported p n v → v.ty = some t := by
  intro v hv
  unfold areOf at h
  unfold Supported at hv
  cases hg : KMap.get? p.attrs (n ++ ascii "-supported") with
  | none => rw [hg] at hv; exact absurd hv (by simp [Declares])
  | some a =>
    rw [hg] at h hv
    rw [declares_asList] at hv
    exact of_decide_eq_true (by simpa using List.all_eq_true.mp h v hv)

theorem types_of {p : Printer} (h1 : ∀ n ∈ [ascii "multiple-document-handling", ascii "media", ascii "sides", ascii "print-color-mode", ascii "print-scaling",
    ascii "document-format", ascii "media-type", ascii "media-source", ascii "output-bin"], areOf p.attrs .str n = true)
    (h2 : ∀ n ∈ [ascii "print-quality", ascii "finishings", ascii "media-top-margin", ascii "media-bottom-margin", ascii "media-left-margin",
    ascii "media-right-margin"], areOf p.attrs .int n = true) (h3 : areOf p.attrs .res (ascii "printer-resolution") = true)
    (h4 : ∀ a, KMap.get? p.attrs (ascii "copies-supported") = some a → ∃ l h, a.2 = .range l h) : Types p :=
  ⟨fun n hn => areOf_eq (h1 n hn), fun n hn => areOf_eq (h2 n hn), areOf_eq h3, h4⟩

/-- C75, as one would like it: a printer with attributes of the right types does not make the program break off. -/
def C75_never_breaks : Prop := ∀ (w : World) (p : Printer) (o : Options) (inFile : Bytes), Types p → o.pages = none → (∃ j j0, createJob p = .ok j ∧ restored w o j = .ok j0) →
  ∃ r, prepare w p o inFile = .ok r

/-- A world with a PDF file. -/
def world : World :=
  { env := { pipelines := defaultPipelines, createReply := .error [], printReply := .error [], convert := fun _ _ => ([], .ok none), reqId := 1 },
    files := { read := fun f => if f = ascii "a.pdf" then some (ascii "%PDF-1.7") else none, overrides := none, parse := fun _ => .error [] },
    store := fun _ => none, user := [], attrsReply := .error [], reply := .error [], pdfPages := fun _ => some 3 }

/-- Page ranges with a number of 2^64 end `print` with an exception. -/
example : (match (printCommand world { addr := ascii "ipp://p/ipp/print", attrs := [] } { pages := some (ascii "18446744073709551616") } (ascii "a.pdf")).out with
    | .throws .outOfRange => true
    | _ => false) = true := by
  decide +kernel

/-- A printer that knows another print quality. -/
def otherQuality : Printer := { addr := ascii "ipp://p/ipp/print", attrs := [(ascii "print-quality-supported", ((0x23 : UInt8), Value.set [.int 4, .int 6]))] }

/-- **C75, where it fails.** A printer that knows another print quality makes every `print` end with an exception, also when no quality is asked for: the list for the
error message is made in any case. -/
theorem C75_quality_false : ¬ C75_never_breaks := by
  intro h
  obtain ⟨r, hr⟩ := h world otherQuality { save := true, mimeType := some pdf } (ascii "a.pdf")
    (types_of (by decide +kernel) (by decide +kernel) (by decide +kernel) (by
      intro a ha
      rw [show KMap.get? otherQuality.attrs (ascii "copies-supported") = none from by decide +kernel] at ha
      cases ha)) rfl ⟨_, _, rfl, rfl⟩
  have : prepare world otherQuality { save := true, mimeType := some pdf } (ascii "a.pdf") = .throws .outOfRange := by rfl
  rw [this] at hr
  cases hr

/-- A printer with some abilities. -/
def somePrinter : Printer :=
  { addr := ascii "ipp://p/ipp/print", attrs :=
    [(ascii "copies-supported", (0x33, .range 1 99)), (ascii "media-supported", (0x44, .set [.str (ascii "iso_a4_210x297mm"), .str (ascii "na_letter_8.5x11in")])),
     (ascii "media-top-margin-supported", (0x21, .set [.int 0, .int 300])), (ascii "print-quality-supported", (0x23, .set [.int 4, .int 5])),
     (ascii "printer-resolution-supported", (0x32, .res 600 600 3)), (ascii "sides-supported", (0x44, .set [.str (ascii "one-sided"), .str (ascii "two-sided-long-edge")]))] }

theorem somePrinter_typed : Typed somePrinter :=
  { toTypes := types_of (by decide +kernel) (by decide +kernel) (by decide +kernel) (by
      intro a ha
      rw [show KMap.get? somePrinter.attrs (ascii "copies-supported") = some (0x33, .range 1 99) from by decide +kernel] at ha
      cases ha
      exact ⟨1, 99, rfl⟩),
    qualities := by
      intro v hv
      unfold Supported at hv
      rw [show KMap.get? somePrinter.attrs (ascii "print-quality" ++ ascii "-supported") = some (0x23, .set [.int 4, .int 5]) from by decide +kernel, declares_asList] at hv
      have hv : v ∈ [Value.int 4, .int 5] := hv
      simp only [List.mem_cons, List.not_mem_nil, or_false] at hv
      rcases hv with rfl | rfl <;> simp }

/-- Options that this printer can satisfy. -/
def someOptions : Options :=
  { pages := some (ascii "2-5,9-"), copies := some 3, paperSize := some (ascii "iso_a4_210x297mm"), hwRes := some 600, quality := some 5, topMargin := some 300,
    sides := some (ascii "two-sided-long-edge") }

/-- The example satisfies what `C75_set` asks for. -/
example : Typed somePrinter ∧ (∃ j, createJob somePrinter = .ok j ∧ restored world someOptions j = .ok j) ∧
    TypeIs world someOptions (ascii "a.pdf") (ascii "application/pdf") ∧ DenotesRanges (ascii "2-5,9-") [(2, 5), (9, 18446744073709551615)] ∧
    ¬ Refused somePrinter someOptions ∧ ∀ e, ¬ Breaks somePrinter someOptions e := by
  have hd : DenotesRanges (ascii "2-5,9-") [(2, 5), (9, 18446744073709551615)] :=
    ((C14_page_ranges_partial (ascii "2-5,9-")).1 _ (by decide)).mp (by decide +kernel)
  refine ⟨somePrinter_typed, ⟨_, rfl, rfl⟩, .inr ⟨rfl, by decide +kernel, ascii "%PDF-1.7", .pdf, by decide +kernel, ⟨[37, 80, 68, 70], by decide +kernel, by decide +kernel⟩, rfl⟩, hd, ?_, typed_breaks somePrinter_typed ?_⟩
  rotate_left
  · rintro ⟨text, h1, h2⟩
    cases h1
    exact large_not_ranges h2 _ hd
  intro h
  cases h with
  | pages t h1 h2 => cases h1; exact h2 _ hd
  | oneResolution h => exact h rfl
  | copies n h1 h2 =>
    cases h1
    exact h2 ⟨0x33, 1, 99, by decide +kernel, by decide, by decide⟩
  | value n v h1 h2 =>
    have all : ∀ x ∈ checked someOptions, ∀ v, x.2 = some v → ∃ a, KMap.get? somePrinter.attrs (x.1 ++ ascii "-supported") = some a ∧ v ∈ asList a.2 := by
      intro x hx v hv
      have : ∀ x ∈ checked someOptions, (match x.2 with
          | some v => (match KMap.get? somePrinter.attrs (x.1 ++ ascii "-supported") with
            | some a => decide (v ∈ asList a.2)
            | none => false)
          | none => true) = true := by decide +kernel
      have := this x hx
      rw [hv] at this
      cases hg : KMap.get? somePrinter.attrs (x.1 ++ ascii "-supported") with
      | none => rw [hg] at this; cases this
      | some a => rw [hg] at this; exact ⟨a, rfl, of_decide_eq_true this⟩
    obtain ⟨a, ha, hm⟩ := all _ h1 v rfl
    exact h2 (by unfold Supported; rw [ha, declares_asList]; exact hm)

/-- A printer with a number among the names of its media: who asks for a paper gets an exception. -/
example : Breaks { addr := ascii "ipp://p/ipp/print", attrs := [(ascii "media-supported", (0x44, .set [.str (ascii "iso_a4_210x297mm"), .int 4]))] }
    { paperSize := some (ascii "iso_a4_210x297mm") } .badVariant := by
  refine .value (ascii "media") (.str (ascii "iso_a4_210x297mm")) (.int 4) (List.mem_of_getElem? (i := 1) rfl) ?_ (by decide)
  unfold Supported
  rw [show KMap.get? [(ascii "media-supported", ((0x44 : UInt8), Value.set [.str (ascii "iso_a4_210x297mm"), .int 4]))] (ascii "media" ++ ascii "-supported") =
    some (0x44, .set [.str (ascii "iso_a4_210x297mm"), .int 4]) from by decide +kernel, declares_asList]
  exact .tail _ (.head _)

/-- Options that it refuses: it has no other margin at the top, and two resolutions have to be given. -/
example : Refused somePrinter { topMargin := some 10 } ∧ Refused somePrinter { hwResX := some 600 } ∧ Refused somePrinter { copies := some 100 } := by
  refine ⟨.value (ascii "media-top-margin") (.int 10) (List.mem_of_getElem? (i := 17) rfl) ?_ rfl, .oneResolution (by decide), .copies 100 rfl ?_ ?_ rfl⟩
  · unfold Supported
    rw [show KMap.get? somePrinter.attrs (ascii "media-top-margin" ++ ascii "-supported") = some (0x21, .set [.int 0, .int 300]) from by decide +kernel, declares_asList]
    exact fun h => by
      have h : Value.int 10 ∈ [Value.int 0, .int 300] := h
      simp at h
  · rintro ⟨tag, l, h, hg, h1, h2⟩
    rw [show KMap.get? somePrinter.attrs (ascii "copies-supported") = some (0x33, .range 1 99) from by decide +kernel] at hg
    cases hg
    omega
  · unfold TakesRaster Supported
    rw [show KMap.get? somePrinter.attrs (ascii "document-format" ++ ascii "-supported") = none from by decide +kernel]
    simp [Declares]

/-- Standard input without a type. -/
example : NoType world {} (ascii "-") ∧ NoType world {} (ascii "b.txt") :=
  ⟨⟨rfl, .inl rfl⟩, ⟨rfl, .inr fun data h => by
    have : world.files.read (ascii "b.txt") = none := by decide +kernel
    rw [this] at h
    cases h⟩⟩

end Verif.Client
