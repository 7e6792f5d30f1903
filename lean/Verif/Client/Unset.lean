import Verif.Client.PrintProps

/-!
# C107: variables that `ippclient print` reads without having given them a value

The variables for the options with numbers have no initial value (utils/ippclient.cpp 165-193), and `set_or_fail` takes its value by copy (126-134), so
that the variable is read whether or not its option was given. To read such a variable is undefined. `Client/Model.lean` leaves that out (the value is
not used when the option was not given); here it is put in.
-/

namespace Verif.Client

open Ipp Ipp.Spec Job Job.Spec Printer Printer.Spec Tools Tools.Spec
open Verif.Client.Spec

/-! ## The model -/

/-- A part that reads a variable, which has a value if its option was given. -/
def reads (given : Bool) (s : Step) : Step := fun j => if given then s j else .ub

/-- ippclient.cpp 409-487 with the reading of the variables `copies` (425), `hwRes` (437), `hwResX` and `hwResY` (442), `quality` (453), `finishing` (459) and
those for the four margins (484-487). `margin` is read only when it was given (461). Where a variable is read among the arguments of a call, the others are
evaluated without a fixed order; here the reading comes first. -/
def readSteps (p : Printer) (o : Options) : List Step :=
  [pagesStep o,
   reads o.copies.isSome (copiesStep p o),
   choose sMultipleDocumentHandling (o.collatedCopies.map .str) o.force,
   choose sMedia (o.paperSize.map .str) o.force,
   bothStep o,
   resolutionListStep,
   reads o.hwRes.isSome (choose sResolution (bothOf o.hwRes o.hwRes) o.force),
   reads (o.hwResX.isSome && o.hwResY.isSome) (choose sResolution (bothOf o.hwResX o.hwResY) o.force),
   choose sSides (o.sides.map .str) o.force,
   choose sColorMode (o.colorMode.map .str) o.force,
   qualityListStep,
   reads o.quality.isSome (choose sPrintQuality (o.quality.map .int) o.force),
   choose sScaling (o.scaling.map .str) o.force,
   setOrFail sDocumentFormat.choiceSupports (setOp sDocumentFormat) (o.format.map .str) o.force,
   choose sMediaType (o.mediaType.map .str) o.force,
   choose sMediaSource (o.mediaSource.map .str) o.force,
   choose sOutputBin (o.outputBin.map .str) o.force,
   reads o.finishing.isSome (choose sFinishings (o.finishing.map .int) o.force),
   marginStep o,
   choose sTopMargin (o.margin.map .int) o.force,
   choose sBottomMargin (o.margin.map .int) o.force,
   choose sLeftMargin (o.margin.map .int) o.force,
   choose sRightMargin (o.margin.map .int) o.force,
   reads o.topMargin.isSome (choose sTopMargin (o.topMargin.map .int) o.force),
   reads o.bottomMargin.isSome (choose sBottomMargin (o.bottomMargin.map .int) o.force),
   reads o.leftMargin.isSome (choose sLeftMargin (o.leftMargin.map .int) o.force),
   reads o.rightMargin.isSome (choose sRightMargin (o.rightMargin.map .int) o.force)]

/-- ippclient.cpp 380-487, with the reading of variables -/
def prepareRead (w : World) (p : Printer) (o : Options) (inFile : Bytes) : Outcome (Option (PrintJob × Bytes)) := do
  let j ← createJob p
  let j ← restored w o j
  match inputType w o inFile with
  | none => return none
  | some t =>
    match ← runSteps (readSteps p o) (flags o j) with
    | none => return none
    | some j' => return some (j', t)

/-- `print`, ippclient.cpp 378-529, with the reading of variables -/
def printRead (w : World) (p : Printer) (o : Options) (inFile : Bytes) : Act End := do
  let r ← Act.lift (prepareRead w p o inFile)
  launch w p o inFile r

/-! ## Specification -/

namespace Spec

/-- The options `--copies`, `--resolution`, `--resolution-x`, `--resolution-y`, `--quality`, `--finishings` and those for each margin are all given. -/
def AllNumbers (o : Options) : Prop :=
  o.copies ≠ none ∧ o.hwRes ≠ none ∧ o.hwResX ≠ none ∧ o.hwResY ≠ none ∧ o.quality ≠ none ∧ o.finishing ≠ none ∧
    o.topMargin ≠ none ∧ o.bottomMargin ≠ none ∧ o.leftMargin ≠ none ∧ o.rightMargin ≠ none

end Spec

/-- C107 (false): `print` does the same when variables without a value must not be read. -/
def C107 : Prop := ∀ (w : World) (p : Printer) (o : Options) (inFile : Bytes), printRead w p o inFile = printCommand w p o inFile

/-! ## C107 -/

theorem reads_given {b : Bool} (h : b = true) (s : Step) : reads b s = s := by
  funext j; simp [reads, h]

/-- What is read, part by part. -/
def readMarks (o : Options) : List Bool :=
  [true, o.copies.isSome, true, true, true, true, o.hwRes.isSome, o.hwResX.isSome && o.hwResY.isSome, true, true, true, o.quality.isSome, true, true, true, true,
   true, o.finishing.isSome, true, true, true, true, true, o.topMargin.isSome, o.bottomMargin.isSome, o.leftMargin.isSome, o.rightMargin.isSome]

theorem readSteps_marks (p : Printer) (o : Options) : readSteps p o = List.zipWith reads (readMarks o) (printSteps p o) := by
  simp only [readSteps, readMarks, printSteps, List.zipWith_cons_cons, List.zipWith_nil_left, reads_given]

theorem runSteps_missing {ms : List Bool} {l : List Step} (hl : ms.length = l.length) (hm : false ∈ ms) {j j' : PrintJob}
    (h : runSteps l j = .ok (some j')) : runSteps (List.zipWith reads ms l) j = .ub := by
  induction ms generalizing l j with
  | nil => simp at hm
  | cons m ms ih =>
    cases l with
    | nil => simp at hl
    | cons s l =>
      rw [List.zipWith_cons_cons]
      cases m with
      | false => simp [runSteps, reads]
      | true =>
        obtain ⟨r, h1, h2⟩ := Outcome.bind_eq_ok.mp h
        cases r with
        | none => cases h2
        | some j1 =>
          rw [runSteps, reads_given rfl, h1, Outcome.bind_ok]
          exact ih (by simpa using hl) (by simpa using hm) h2

theorem readMarks_missing {o : Options} (h : ¬ AllNumbers o) : false ∈ readMarks o := by
  simp only [AllNumbers, not_and_or, not_not] at h
  rcases h with h | h | h | h | h | h | h | h | h | h <;> simp [readMarks, h]

theorem readMarks_given {o : Options} (h : AllNumbers o) : readMarks o = List.replicate 27 true := by
  simp only [AllNumbers, ← Option.isSome_iff_ne_none] at h
  obtain ⟨h1, h2, h3, h4, h5, h6, h7, h8, h9, h10⟩ := h
  simp only [readMarks, h1, h2, h3, h4, h5, h6, h7, h8, h9, h10]
  rfl

theorem zip_given (l : List Step) : List.zipWith reads (List.replicate l.length true) l = l := by
  induction l with
  | nil => rfl
  | cons s l ih => rw [List.length_cons, List.replicate_succ, List.zipWith_cons_cons, ih, reads_given rfl]

/-- C107: nothing undefined is read when all of these options are given: `print` is what `C75` and the others say. -/
theorem C107_given (w : World) (p : Printer) (o : Options) (inFile : Bytes) (h : AllNumbers o) : printRead w p o inFile = printCommand w p o inFile := by
  have : readSteps p o = printSteps p o := by
    rw [readSteps_marks, readMarks_given h]
    exact zip_given (printSteps p o)
  have e : prepareRead w p o inFile = prepare w p o inFile := by
    unfold prepareRead prepare
    rw [this]
    rfl
  unfold printRead printCommand
  rw [e]

/-- C107: whenever one of these options is missing and the others are accepted, `print` is undefined. -/
theorem C107_missing (w : World) (p : Printer) (o : Options) (inFile : Bytes) (h : ¬ AllNumbers o) (r : PrintJob × Bytes)
    (hp : prepare w p o inFile = .ok (some r)) : printRead w p o inFile = ⟨[], .ub⟩ := by
  obtain ⟨j, h1, hp⟩ := Outcome.bind_eq_ok.mp hp
  obtain ⟨j0, h2, hp⟩ := Outcome.bind_eq_ok.mp hp
  have e : prepareRead w p o inFile = .ub := by
    unfold prepareRead
    simp only [h1, h2, Outcome.bind_ok]
    cases ht : inputType w o inFile with
    | none => rw [ht] at hp; cases hp
    | some t =>
      rw [ht] at hp
      obtain ⟨s, h3, hp⟩ := Outcome.bind_eq_ok.mp hp
      cases s with
      | none => cases hp
      | some j' =>
        simp only [readSteps_marks, runSteps_missing (by rfl) (readMarks_missing h) h3, Outcome.bind_ub]
  unfold printRead
  rw [e]
  rfl

/-- C107: without `--copies` and `--pages`, `print` is undefined once the type of the file is known. -/
theorem C107_plain (w : World) (p : Printer) (o : Options) (inFile t : Bytes) (j j0 : PrintJob) (hj : createJob p = .ok j) (hr : restored w o j = .ok j0)
    (ht : TypeIs w o inFile t) (hc : o.copies = none) (hp : o.pages = none) : printRead w p o inFile = ⟨[], .ub⟩ := by
  have e : prepareRead w p o inFile = .ub := by
    unfold prepareRead
    simp only [hj, hr, Outcome.bind_ok, inputType_of ht]
    simp [readSteps, runSteps, pagesStep, hp, reads, hc]
  unfold printRead
  rw [e]
  rfl

/-- C107 is false: `ippclient print ipp://p/ipp/print a.pdf` reads variables that have no value. -/
theorem C107_false : ¬ C107 := by
  intro h
  have ht : TypeIs world {} (ascii "a.pdf") (ascii "application/pdf") :=
    .inr ⟨rfl, by decide +kernel, ascii "%PDF-1.7", .pdf, by decide +kernel, ⟨[37, 80, 68, 70], by decide +kernel, by decide +kernel⟩, rfl⟩
  have h1 := C107_plain world somePrinter {} (ascii "a.pdf") _ _ _ rfl rfl ht rfl rfl
  rw [h] at h1
  have h2 : (match (printCommand world somePrinter {} (ascii "a.pdf")).out with | .ub => true | _ => false) = false := by decide +kernel
  rw [h1] at h2
  exact absurd h2 (by decide)

/-- Options for which all is given. -/
def allGiven : Options :=
  { copies := some 2, hwRes := some 600, hwResX := some 600, hwResY := some 600, quality := some 5, finishing := some 3, topMargin := some 0, bottomMargin := some 0,
    leftMargin := some 0, rightMargin := some 0, force := true }

example : AllNumbers allGiven ∧ ∃ r, prepare world somePrinter allGiven (ascii "a.pdf") = .ok (some r) :=
  ⟨⟨nofun, nofun, nofun, nofun, nofun, nofun, nofun, nofun, nofun, nofun⟩, _, rfl⟩

/-- Options that are accepted, of which one is missing. -/
example : ¬ AllNumbers { allGiven with leftMargin := none } ∧ ∃ r, prepare world somePrinter { allGiven with leftMargin := none } (ascii "a.pdf") = .ok (some r) :=
  ⟨fun h => h.2.2.2.2.2.2.2.2.1 rfl, _, rfl⟩

end Verif.Client
