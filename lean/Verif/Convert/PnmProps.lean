import Verif.Convert.PdfProps
import Verif.Raster.StreamProps

/-!
# Property C79: what a command line of ppm2pwg converts, and to what
-/

namespace Verif.Convert

open Tools Tools.Spec Client Client.Spec Raster Raster.Spec

/-! ## Specification -/

namespace Spec

/-- The format: what the option says, and without it URF if the name of the output ends so, otherwise PWG. -/
def PnmFormat (uses : List Use) (outFile : Bytes) (f : Format) : Prop :=
  ∃ f', ((ascii ".urf" <:+ outFile ∧ f' = .URF) ∨ (¬ ascii ".urf" <:+ outFile ∧ f' = .PWG)) ∧
    Named [("pwg", .PWG), ("urf", .URF)] f' (word uses [ascii "-f", ascii "--format"]) f

/-- What the command line of ppm2pwg asks for. -/
structure PnmJob (uses : List Use) (outFile : Bytes) (p : Params) : Prop where
  common : Common uses p
  format : PnmFormat uses outFile p.format
  sizeName : p.paperSizeName = paperName uses

/-- What is refused: for URF a media type that it does not have. -/
def PnmRefused (uses : List Use) (outFile : Bytes) : Prop :=
  PnmFormat uses outFile .URF ∧ ∃ t, word uses [ascii "-mt", ascii "--media-type"] = some t ∧ ∀ s n, (s, n) ∈ Raster.Spec.urfMedia → t ≠ ascii s

/-- The pages for pictures: parameters, number and pixels of each, counted from `n`. -/
def pagesOf (pt : Nat → Nat → Nat) (p : Params) : Nat → List PnmPage → List (Params × Nat × Bytes)
  | _, [] => []
  | n, g :: gs => (g.params pt p, n, g.pixels) :: pagesOf pt p (n + 1) gs

/-- The bytes are no picture: after white space they have another first word than a magic number (possibly none at all). -/
def NoPicture (s : Bytes) : Prop :=
  s ≠ [] ∧ s.head? ≠ some 35 ∧ ∃ ws w rest, s = ws ++ (w ++ rest) ∧ (∀ b ∈ ws, isSpace b = true) ∧ (∀ b ∈ w, isSpace b = false) ∧
    (∀ b, rest.head? = some b → isSpace b = true) ∧ (w = [] → rest = []) ∧ w ≠ ascii "P4" ∧ w ≠ ascii "P5" ∧ w ≠ ascii "P6"

end Spec

open Verif.Convert.Spec

/-! ## Proofs -/

theorem ppm_disjoint : Disjoint ppmOpts := disjoint_of (by decide +kernel)

theorem common_ppm {uses : List Use} (hu : ∀ u ∈ uses, IsUse ppmOpts u) (outFile : Bytes) : Common uses (ppmParams (lastValue uses) outFile) where
  resW := resolution_of ppm_disjoint hu rfl rfl
  resH := resolution_of ppm_disjoint hu rfl rfl
  duplex := duplex_of ppm_disjoint hu rfl rfl
  back := named_of ppm_disjoint hu (i := 10) rfl backs rfl .Normal
  quality := named_of ppm_disjoint hu (i := 11) rfl qualities rfl .DefaultQuality
  position := named_of ppm_disjoint hu (i := 12) rfl positions (by decide +kernel) 0
  mediaType := by
    show (textOf (lastValue uses 13)).getD [] = _
    rw [text_eq ppm_disjoint hu (i := 13) rfl]

theorem pnmFormat_of {uses : List Use} (hu : ∀ u ∈ uses, IsUse ppmOpts u) (outFile : Bytes) :
    PnmFormat uses outFile (ppmParams (lastValue uses) outFile).format := by
  have he := Discovery.endsWith_iff outFile (ascii ".urf")
  have hn := named_of ppm_disjoint hu (i := 2) rfl [("pwg", Format.PWG), ("urf", .URF)] rfl (if Text.endsWith outFile (ascii ".urf") then .URF else .PWG)
  refine ⟨_, ?_, hn⟩
  by_cases h : Text.endsWith outFile (ascii ".urf") = true
  · rw [if_pos h]; exact .inl ⟨he.mp h, rfl⟩
  · rw [if_neg h]; exact .inr ⟨fun h' => h (he.mpr h'), rfl⟩

theorem pnmFormat_unique {uses : List Use} {outFile : Bytes} {f g : Format} (hf : PnmFormat uses outFile f) (hg : PnmFormat uses outFile g) : f = g := by
  obtain ⟨f', h1, h2⟩ := hf
  obtain ⟨g', h3, h4⟩ := hg
  have : f' = g' := by
    rcases h1 with ⟨a, rfl⟩ | ⟨a, rfl⟩ <;> rcases h3 with ⟨b, rfl⟩ | ⟨b, rfl⟩
    · rfl
    · exact absurd a b
    · exact absurd b a
    · rfl
  subst this
  exact named_unique (by decide +kernel) h2 h4

theorem pnmFormat_cases {uses : List Use} {outFile : Bytes} {f : Format} (hf : PnmFormat uses outFile f) : f = .PWG ∨ f = .URF := by
  obtain ⟨f', h1, h2⟩ := hf
  unfold Named at h2
  split at h2
  · subst h2
    rcases h1 with ⟨_, h⟩ | ⟨_, h⟩
    · exact .inr h
    · exact .inl h
  · obtain ⟨s, _, hm⟩ := h2
    simp only [List.mem_cons, Prod.mk.injEq, List.not_mem_nil, or_false] at hm
    rcases hm with h | h
    · exact .inl h.2
    · exact .inr h.2

theorem ppm_job {uses : List Use} (hu : ∀ u ∈ uses, IsUse ppmOpts u) (outFile : Bytes) : PnmJob uses outFile (ppmParams (lastValue uses) outFile) :=
  ⟨common_ppm hu outFile, pnmFormat_of hu outFile, by
    show (textOf (lastValue uses 4)).getD _ = _
    rw [text_eq ppm_disjoint hu (i := 4) (names := [ascii "--paper-size"]) rfl]; rfl⟩

theorem refused_iff {uses : List Use} (hu : ∀ u ∈ uses, IsUse ppmOpts u) (outFile : Bytes) :
    ((ppmParams (lastValue uses) outFile).format = .URF ∧ (lastValue uses 13).isSome = true ∧
      isUrfMediaType (ppmParams (lastValue uses) outFile).mediaType = false) ↔ PnmRefused uses outFile := by
  have hj := ppm_job hu outFile
  have hm := hj.common.mediaType
  have ht : (lastValue uses 13).isSome = (word uses [ascii "-mt", ascii "--media-type"]).isSome := by
    rcases value_cases ppm_disjoint hu (i := 13) (o := textOpt [ascii "-mt", ascii "--media-type"]) rfl rfl with ⟨_, h2, h3⟩ | ⟨w, v, _, h2, _, h4⟩
    · rw [show word uses [ascii "-mt", ascii "--media-type"] = none from h2, h3]; rfl
    · rw [show word uses [ascii "-mt", ascii "--media-type"] = some w from h2, h4]; rfl
  rw [ht, isUrfMediaType_iff]
  constructor
  · rintro ⟨h1, h2, h3⟩
    cases hw : word uses [ascii "-mt", ascii "--media-type"] with
    | none => rw [hw] at h2; cases h2
    | some t =>
      rw [hw] at hm
      refine ⟨h1 ▸ hj.format, t, hw, ?_⟩
      rwa [show (ppmParams (lastValue uses) outFile).mediaType = t from hm] at h3
  · rintro ⟨h1, t, h2, h3⟩
    refine ⟨pnmFormat_unique hj.format h1, by rw [h2]; rfl, ?_⟩
    rw [h2] at hm
    rwa [show (ppmParams (lastValue uses) outFile).mediaType = t from hm]

theorem count_of {uses : List Use} (hu : ∀ u ∈ uses, IsUse ppmOpts u) :
    Counted (2 ^ 31) 0 (word uses [ascii "--num-pages"]) (uint32Of ((Client.numOf (lastValue uses 3)).getD 0)) := by
  refine ⟨fun hw => ?_, fun k hk hw => ?_⟩
  · rw [int_none ppm_disjoint hu (i := 3) rfl hw]; rfl
  · rw [int_dec ppm_disjoint hu (i := 3) rfl hk hw]; exact uint32Of_nat hk

theorem ppm_main {uses : List Use} {args : List Bytes} {inFile outFile : Bytes}
    (ha : Accounts ppmOpts ppmPos args uses [inFile, outFile]) (hh : lastUse uses [ascii "-h", ascii "--help"] = none) (d : Disk) :
    ppmMain d args = if (ppmParams (lastValue uses) outFile).format = .URF ∧ (lastValue uses 13).isSome = true ∧
        isUrfMediaType (ppmParams (lastValue uses) outFile).mediaType = false then { out := .ok 1 }
      else match d.read inFile with
        | none => { out := .ok 1 }
        | some s =>
          let p := ppmParams (lastValue uses) outFile
          let hdr := if p.format = .URF then urfFileHdr (uint32Of ((Client.numOf (lastValue uses 3)).getD 0)) else pwgFileHdr
          let pages := readPnm pixelPoints p 1 s
          let e := encodeUntil pages.1 pages.2
          { out := e.2, file := some (outFile, d.kept outFile (hdr ++ e.1)) } := by
  obtain ⟨h1, h2, h3⟩ := C45_complete ha
  have hv : (getArgs ppmOpts ppmPos args).vals = lastValue uses := funext h2
  have h0 : (lastValue uses 0).isSome = false := by
    rw [switch_eq ppm_disjoint ha.uses (i := 0) (names := [ascii "-h", ascii "--help"]) rfl, hh]; rfl
  unfold ppmMain ppmWith
  simp only [hv, h0, h1, h3, Bool.false_eq_true, if_false, if_true]
  rfl

theorem pixelPoints_about (px res : Nat) : AboutWhole (pixelPoints px res) ((px : Rat) / res * 72) := by
  unfold pixelPoints sizeInPoints
  refine roundAway_about ?_ (by positivity)
  have h0 : Bd ((px : Rat) / res) ((px : Rat) / res) 1 1 := ⟨by linarith, by linarith⟩
  exact roundHundredth_about (((h0.dbl (by positivity) (by norm_num)).mul (c := 72) (by norm_num)).dbl (by positivity) (by norm_num))
    (by positivity) (by norm_num) (by norm_num)

/-- One picture, and what comes next. -/
theorem readPnm_step (pt : Nat → Nat → Nat) (p : Params) (page : Nat) (g : PnmPage) (more : Bytes) (hwf : g.Wf) (hl : g.last = 10)
    (hx : (g.pixels ++ more).head? ≠ some 35) (hurf : g.kind = .pbm → p.format ≠ .URF) :
    readPnm pt p page (g.bytes ++ more) =
      if more = [] then ([(g.params pt p, page, g.pixels)], .done)
      else ((g.params pt p, page, g.pixels) :: (readPnm pt (g.params pt p) (page + 1) more).1, (readPnm pt (g.params pt p) (page + 1) more).2) := by
  have hh := pnmHeader_bytes pt p g more hwf hl hx hurf
  have hrow : (g.params pt p).widthBytes = .ok (rowBytes g.kind.mode g.width) := widthBytes_eq _
  have hsize : (g.params pt p).heightPx * rowBytes g.kind.mode g.width = g.pixels.length := by rw [hwf.size]; rfl
  conv => lhs; unfold readPnm
  split
  · rename_i e he; rw [hh] at he; cases he
  · rename_i q s1 he
    rw [hh] at he
    cases he
    rw [hrow]
    simp only [hsize]
    rw [if_neg (by simp)]
    simp

theorem dropWhile_all {f : UInt8 → Bool} {l : Bytes} (h : ∀ b ∈ l, f b = true) : l.dropWhile f = [] := by
  induction l with
  | nil => rfl
  | cons a l ih => rw [List.dropWhile_cons, if_pos (h a (by simp))]; exact ih (fun b hb => h b (List.mem_cons_of_mem _ hb))

theorem noPicture_read {s : Bytes} (h : NoPicture s) (pt : Nat → Nat → Nat) (p : Params) (page : Nat) : readPnm pt p page s = ([], .refused) := by
  obtain ⟨_, _, ws, w, rest, rfl, h1, h2, h3, h0, h4, h5, h6⟩ := h
  have ht : (readToken (ws ++ (w ++ rest))).1 = w := by
    by_cases hw : w = []
    · rw [hw, h0 hw]
      unfold readToken
      have : (ws ++ ([] ++ [])).dropWhile isSpace = [] := by simpa using dropWhile_all h1
      rw [this]; rfl
    · rw [readToken_append ws w rest h1 hw h2 h3]
  have hm : ∀ xs s', pnmMode p.format (readToken (ws ++ (w ++ rest))).1 xs s' = .error .refused := by
    intro xs s'
    unfold pnmMode
    rw [ht, if_neg h6, if_neg h5, if_neg h4]
  have hh : pnmHeader pt p (ws ++ (w ++ rest)) = .error .refused := by
    unfold pnmHeader
    simp only [hm]
  unfold readPnm
  split
  · rename_i e he; rw [hh] at he; cases he; rfl
  · rename_i he; rw [hh] at he; cases he

theorem params_params (pt : Nat → Nat → Nat) (p : Params) (g x : PnmPage) : PnmPage.params pt (g.params pt p) x = PnmPage.params pt p x := rfl

theorem pagesOf_params (pt : Nat → Nat → Nat) (p : Params) (g : PnmPage) (n : Nat) (gs : List PnmPage) :
    pagesOf pt (g.params pt p) n gs = pagesOf pt p n gs := by
  induction gs generalizing n with
  | nil => rfl
  | cons x xs ih => simp only [pagesOf, ih, params_params]

theorem bytes_head (g : PnmPage) : g.bytes.head? = some 80 := by
  simp only [PnmPage.bytes]; cases g.kind <;> rfl

theorem head?_append_cases {a b : Bytes} (ha : a.head? ≠ some 35) (hb : b.head? ≠ some 35) : (a ++ b).head? ≠ some 35 := by
  cases a with
  | nil => exact hb
  | cons x xs => simpa using ha

theorem flatten_head {gs : List PnmPage} {more : Bytes} (hm : more.head? ≠ some 35) : ((gs.map PnmPage.bytes).flatten ++ more).head? ≠ some 35 := by
  cases gs with
  | nil => exact hm
  | cons g gs =>
    have := bytes_head g
    cases hb : g.bytes with
    | nil => rw [hb] at this; cases this
    | cons x xs =>
      rw [hb] at this
      simp only [List.head?_cons, Option.some.injEq] at this
      subst this
      simp [hb]

/-- The pictures, and what comes after them. -/
theorem readPnm_then (pt : Nat → Nat → Nat) {gs : List PnmPage} (hne : gs ≠ []) (h : ∀ g ∈ gs, g.Wf ∧ g.last = 10 ∧ g.pixels.head? ≠ some 35)
    {more : Bytes} (hm : more = [] ∨ NoPicture more) (p : Params) (page : Nat) (hurf : ∀ g ∈ gs, g.kind = .pbm → p.format ≠ .URF) :
    readPnm pt p page ((gs.map PnmPage.bytes).flatten ++ more) = (pagesOf pt p page gs, if more = [] then .done else .refused) := by
  have hmh : more.head? ≠ some 35 := by
    rcases hm with rfl | hm
    · simp
    · exact hm.2.1
  induction gs generalizing p page with
  | nil => exact absurd rfl hne
  | cons g gs ih =>
    obtain ⟨hwf, hl, hx⟩ := h g (by simp)
    simp only [List.map_cons, List.flatten_cons, List.append_assoc]
    rw [readPnm_step pt p page g _ hwf hl (head?_append_cases hx (flatten_head hmh)) (hurf g (by simp))]
    cases gs with
    | nil =>
      rcases hm with rfl | hm
      · rfl
      · rw [if_neg (by simpa using hm.1)]
        simp only [List.map_nil, List.flatten_nil, List.nil_append, noPicture_read hm, if_neg hm.1]
        rfl
    | cons g' gs' =>
      rw [if_neg]
      · rw [ih (by simp) (fun g hg => h g (List.mem_cons_of_mem _ hg)) (g.params pt p) (page + 1) (fun g hg => hurf g (List.mem_cons_of_mem _ hg)),
          pagesOf_params]
        rfl
      · have := bytes_head g'
        intro hc
        simp only [List.map_cons, List.flatten_cons, List.append_assoc, List.append_eq_nil_iff] at hc
        rw [hc.1] at this; cases this

theorem encodeUntil_ok {pages : List (Params × Nat × Bytes)} {enc : Bytes} (h : encodePages pages = .ok enc) (e : PnmEnd) :
    encodeUntil pages e = (enc, (encodeUntil [] e).2) := by
  induction pages generalizing enc with
  | nil => cases h; cases e <;> rfl
  | cons x xs ih =>
    obtain ⟨a, h1, h2⟩ := Outcome.bind_eq_ok.mp h
    obtain ⟨b, h3, h4⟩ := Outcome.bind_eq_ok.mp h2
    cases h4
    simp only [encodeUntil, h1, ih h3]

theorem pagesOf_mem {pt : Nat → Nat → Nat} {p : Params} {n : Nat} {gs : List PnmPage} : ∀ x ∈ pagesOf pt p n gs, ∃ g ∈ gs, x.1 = g.params pt p ∧ x.2.2 = g.pixels := by
  induction gs generalizing n with
  | nil => intro x hx; cases hx
  | cons g gs ih =>
    intro x hx
    rcases List.mem_cons.mp hx with rfl | hx
    · exact ⟨g, by simp, rfl, rfl⟩
    · obtain ⟨g', h1, h2⟩ := ih x hx
      exact ⟨g', List.mem_cons_of_mem _ h1, h2⟩

/-- What is not refused can be expressed in URF, if the resolution is the same in both directions and it is not a bitmap. -/
theorem pnm_urfAble {uses : List Use} {outFile : Bytes} {p : Params} (hj : PnmJob uses outFile p) (hr : ¬ PnmRefused uses outFile)
    (hf : p.format = .URF) (hs : p.hwResW = p.hwResH) (pt : Nat → Nat → Nat) {g : PnmPage} (hk : g.kind ≠ .pbm) :
    Raster.Spec.UrfAble (g.params pt p) := by
  refine ⟨hs, ?_, ?_⟩
  · revert hk; cases h : g.kind <;> simp [PnmPage.params, h, PnmKind.mode, Raster.Spec.urfColorNumber]
  · show ∃ n, Raster.Spec.urfMediaNumber p.mediaType n
    unfold Raster.Spec.urfMediaNumber
    have hm := hj.common.mediaType
    cases hw : word uses [ascii "-mt", ascii "--media-type"] with
    | none => rw [hw] at hm; exact ⟨0, .inl ⟨hm, rfl⟩⟩
    | some t =>
      rw [hw] at hm
      by_cases h2 : ∃ s n, (s, n) ∈ Raster.Spec.urfMedia ∧ t = ascii s
      · obtain ⟨s, n, h3, h4⟩ := h2
        exact ⟨n, .inr ⟨s, h3, hm.trans h4⟩⟩
      · exact absurd ⟨hf ▸ hj.format, t, hw, fun s n h3 h4 => h2 ⟨s, n, h3, h4⟩⟩ hr

/-! ## Theorems -/

/-- C79: what is refused, or can not be read, makes no output and ends with 1. -/
theorem C79_refuses (d : Disk) {args : List Bytes} {uses : List Use} {inFile outFile : Bytes} (ha : Accounts ppmOpts ppmPos args uses [inFile, outFile])
    (hh : lastUse uses [ascii "-h", ascii "--help"] = none) (h : PnmRefused uses outFile ∨ d.read inFile = none) :
    ppmMain d args = { out := .ok 1, file := none } := by
  rw [ppm_main ha hh]
  by_cases hr : PnmRefused uses outFile
  · rw [if_pos ((refused_iff ha.uses outFile).mpr hr)]
  · rw [if_neg (fun h => hr ((refused_iff ha.uses outFile).mp h)), h.resolve_left hr]

/-- C79: every other command line makes no output and ends with 1, or with 0 when there is a request for help in it. -/
theorem C79_rejects (d : Disk) (args : List Bytes) (h : ∀ uses pos, ¬ Accounts ppmOpts ppmPos args uses pos) :
    (ppmMain d args).file = none ∧ ((ppmMain d args).out = .ok 1 ∨ ((ppmMain d args).out = .ok 0 ∧ (ascii "-h" ∈ args ∨ ascii "--help" ∈ args))) := by
  have hns : (getArgs ppmOpts ppmPos args).success = false := by
    cases hs : (getArgs ppmOpts ppmPos args).success with
    | false => rfl
    | true =>
      obtain ⟨uses, pos, ha, _⟩ := C45_sound hs
      exact absurd ha (h uses pos)
  unfold ppmMain ppmWith
  simp only [hns]
  cases hv : ((getArgs ppmOpts ppmPos args).vals 0).isSome with
  | false => exact ⟨rfl, .inl rfl⟩
  | true =>
    refine ⟨rfl, .inr ⟨rfl, ?_⟩⟩
    obtain ⟨n, ⟨o, ho, hno⟩, hm⟩ := getArgs_set hv
    cases ho
    simp only [helpOpt, boolOpt, List.mem_cons, List.not_mem_nil, or_false] at hno
    rcases hno with rfl | rfl
    · exact .inl hm
    · exact .inr hm

/-- C79: a use of the help option has no further effect. -/
theorem C79_help (d : Disk) {args : List Bytes} {uses : List Use} {pos : List Bytes} (ha : Accounts ppmOpts ppmPos args uses pos)
    (hh : lastUse uses [ascii "-h", ascii "--help"] ≠ none) : ppmMain d args = { out := .ok 0, file := none } := by
  obtain ⟨h1, h2, h3⟩ := C45_complete ha
  have h0 : ((getArgs ppmOpts ppmPos args).vals 0).isSome = true := by
    rw [h2, switch_eq ppm_disjoint ha.uses (i := 0) (names := [ascii "-h", ascii "--help"]) rfl]
    cases hl : lastUse uses [ascii "-h", ascii "--help"] with
    | none => exact absurd hl hh
    | some u => rfl
  unfold ppmMain ppmWith
  simp only [h0]
  rfl

/-- The conversion, for the parameters that the command line gives. -/
theorem ppm_converts (d : Disk) {args : List Bytes} {uses : List Use} {inFile outFile : Bytes} (ha : Accounts ppmOpts ppmPos args uses [inFile, outFile])
    (hh : lastUse uses [ascii "-h", ascii "--help"] = none) (hr : ¬ PnmRefused uses outFile) {gs : List PnmPage} (hne : gs ≠ [])
    (hg : ∀ g ∈ gs, g.Wf ∧ g.last = 10 ∧ g.pixels.head? ≠ some 35) {more : Bytes} (hm : more = [] ∨ NoPicture more)
    (hread : d.read inFile = some ((gs.map PnmPage.bytes).flatten ++ more)) (hroom : d.room outFile = none)
    (hs : (ppmParams (lastValue uses) outFile).format = .URF → (ppmParams (lastValue uses) outFile).hwResW = (ppmParams (lastValue uses) outFile).hwResH)
    (hk : ∀ g ∈ gs, Raster.Spec.Fits (g.params pixelPoints (ppmParams (lastValue uses) outFile)) ∧ (g.kind = .pbm → (ppmParams (lastValue uses) outFile).format = .PWG)) :
    ∃ file, ppmMain d args = { out := .ok (if more = [] then 0 else 1), file := some (outFile, file) } ∧
      ((ppmParams (lastValue uses) outFile).format = .PWG → Raster.Spec.PwgDocument (pagesOf pixelPoints (ppmParams (lastValue uses) outFile) 1 gs) file ∧
        ((∀ g ∈ gs, g.kind ≠ .pgm16 ∧ g.kind ≠ .ppm16) → ∃ outs, readRaster file = .ok (.pwg outs) ∧ All2 ShowsPwg (pagesOf pixelPoints (ppmParams (lastValue uses) outFile) 1 gs) outs)) ∧
      ((ppmParams (lastValue uses) outFile).format = .URF → Raster.Spec.UrfDocument (uint32Of ((Client.numOf (lastValue uses 3)).getD 0)) (pagesOf pixelPoints (ppmParams (lastValue uses) outFile) 1 gs) file ∧
        ∃ outs, readRaster file = .ok (.urf (uint32Of ((Client.numOf (lastValue uses 3)).getD 0)) outs) ∧ All2 ShowsUrf (pagesOf pixelPoints (ppmParams (lastValue uses) outFile) 1 gs) outs) := by
  have hj := ppm_job ha.uses outFile
  rw [ppm_main ha hh, if_neg (fun h => hr ((refused_iff ha.uses outFile).mp h)), hread]
  have hkept : ∀ x, d.kept outFile x = x := by intro x; unfold Disk.kept; rw [hroom]
  generalize ppmParams (lastValue uses) outFile = p at *
  have hread := readPnm_then pixelPoints hne hg hm p 1 (by
    intro g hg hb hu
    rw [(hk g hg).2 hb] at hu; cases hu)
  simp only [hread, hkept]
  have hend : (encodeUntil [] (if more = [] then PnmEnd.done else .refused)).2 = .ok (if more = [] then 0 else 1) := by
    split <;> rfl
  rcases pnmFormat_cases hj.format with hf | hf
  · obtain ⟨enc, e1, e4⟩ := C99_pwg (pagesOf pixelPoints p 1 gs) (by
      intro x hx
      obtain ⟨g, hg', e1, e2⟩ := pagesOf_mem x hx
      rw [e1, e2]
      exact ⟨by simp [PnmPage.params, hf], (hk g hg').1, (hg g hg').1.size⟩)
    refine ⟨pwgFileHdr ++ enc, ?_, fun _ => ⟨e4, fun h16 => ?_⟩, fun h => (by rw [hf] at h; cases h)⟩
    · rw [encodeUntil_ok e1, hend, hf]
      rfl
    · obtain ⟨enc', outs, e5, e2, e3⟩ := C02_pwg_document (pagesOf pixelPoints p 1 gs) (by
        intro x hx
        obtain ⟨g, hg', e1, e2⟩ := pagesOf_mem x hx
        rw [e1, e2]
        refine ⟨by simp [PnmPage.params, hf], (hk g hg').1, ?_, (hg g hg').1.size⟩
        have := h16 g hg'
        revert this
        cases h : g.kind <;> simp [PnmPage.params, h, PnmKind.mode, bitsPerColor])
      rw [e1] at e5; cases e5
      exact ⟨outs, e2, e3⟩
  · have hc : uint32Of ((Client.numOf (lastValue uses 3)).getD 0) < 2 ^ 32 := by
      unfold uint32Of
      omega
    have hall : ∀ x ∈ pagesOf pixelPoints p 1 gs, x.1.format = .URF ∧ UrfAble x.1 ∧ Raster.Spec.Fits x.1 ∧
        x.2.2.length = x.1.heightPx * rowBytes x.1.colorMode x.1.widthPx := by
      intro x hx
      obtain ⟨g, hg', e1, e2⟩ := pagesOf_mem x hx
      rw [e1, e2]
      refine ⟨by simp [PnmPage.params, hf], pnm_urfAble hj hr hf (hs hf) _ (fun h => ?_), (hk g hg').1, (hg g hg').1.size⟩
      have := (hk g hg').2 h
      rw [hf] at this; cases this
    obtain ⟨enc, outs, e1, e2, e3⟩ := C03_urf_document _ hc _ hall
    obtain ⟨enc', d1, d2⟩ := C99_urf _ hc _ hall
    rw [e1] at d1; cases d1
    refine ⟨_, ?_, fun h => (by rw [hf] at h; cases h), fun _ => ⟨d2, outs, e2, e3⟩⟩
    rw [encodeUntil_ok e1, hend, if_pos hf]

/-- C79: otherwise the pictures of the input become the pages of the output, in order, by the standard of its format and (unless there are 16 bits per color in PWG, see C10) as pwg2ppm reads them, with what the last use of each
option says; the exit code tells whether something else came after the pictures. The count of pages in a URF file is the number given with the option.
Missing: what C13 leaves out, resolutions of 0, numbers that are not plain (as in `C78_numbers_false`), different resolutions for
URF (`C79_uncaught_false`), and a count of pages that is true (`C79_count_false`). -/
theorem C79_converts_partial (d : Disk) {args : List Bytes} {uses : List Use} {inFile outFile : Bytes} (ha : Accounts ppmOpts ppmPos args uses [inFile, outFile])
    (hh : lastUse uses [ascii "-h", ascii "--help"] = none) (hr : ¬ PnmRefused uses outFile) {gs : List PnmPage} (hne : gs ≠ [])
    (hg : ∀ g ∈ gs, g.Wf ∧ g.last = 10 ∧ g.pixels.head? ≠ some 35) {more : Bytes} (hm : more = [] ∨ NoPicture more)
    (hread : d.read inFile = some ((gs.map PnmPage.bytes).flatten ++ more)) (hroom : d.room outFile = none) :
    ∃ pt p count, (∀ px res : Nat, 0 < res → AboutWhole (pt px res) ((px : Rat) / res * 72)) ∧ PnmJob uses outFile p ∧
      Counted (2 ^ 31) 0 (word uses [ascii "--num-pages"]) count ∧
      (0 < p.hwResW → 0 < p.hwResH → (p.format = .URF → p.hwResW = p.hwResH) →
        (∀ g ∈ gs, Raster.Spec.Fits (g.params pt p) ∧ (g.kind = .pbm → p.format = .PWG)) →
        ∃ file, ppmMain d args = { out := .ok (if more = [] then 0 else 1), file := some (outFile, file) } ∧
          (p.format = .PWG → Raster.Spec.PwgDocument (pagesOf pt p 1 gs) file ∧
            ((∀ g ∈ gs, g.kind ≠ .pgm16 ∧ g.kind ≠ .ppm16) → ∃ outs, readRaster file = .ok (.pwg outs) ∧ All2 ShowsPwg (pagesOf pt p 1 gs) outs)) ∧
          (p.format = .URF → Raster.Spec.UrfDocument count (pagesOf pt p 1 gs) file ∧
            ∃ outs, readRaster file = .ok (.urf count outs) ∧ All2 ShowsUrf (pagesOf pt p 1 gs) outs)) := by
  have hj := ppm_job ha.uses outFile
  refine ⟨pixelPoints, ppmParams (lastValue uses) outFile, _, fun px res _ => pixelPoints_about px res, hj, count_of ha.uses, ?_⟩
  exact fun _ _ hs hk => ppm_converts d ha hh hr hne hg hm hread hroom hs hk

/-! ## What does not hold, and examples -/

/-- a picture of 3 pixels -/
def oneLine : Bytes := plainPage.bytes

/-- The disk of the examples -/
def oneDisk (s : Bytes) : Disk := { read := fun _ => some s, room := fun _ => none }

/-- C79 does not hold of the count of pages: without the option it is 0, whatever the input has. (The full claim would be that it is the number of pages.) -/
theorem C79_count_false : ∃ (args : List Bytes) (outFile file : Bytes) (outs : List PageOut), plainPage.Wf ∧ plainPage.last = 10 ∧ plainPage.pixels.head? ≠ some 35 ∧
    ppmMain (oneDisk (plainPage.bytes ++ plainPage.bytes)) args = { out := .ok 0, file := some (outFile, file) } ∧
    readRaster file = .ok (.urf 0 outs) ∧ outs.length = 2 := by
  have h : (match (ppmMain (oneDisk (plainPage.bytes ++ plainPage.bytes)) [ascii "a.pgm", ascii "b.urf"]).file with
    | some (_, file) => match readRaster file with
      | .ok (.urf 0 outs) => outs.length
      | _ => 0
    | none => 0) = 2 := by decide +kernel
  have h0 : (ppmMain (oneDisk (plainPage.bytes ++ plainPage.bytes)) [ascii "a.pgm", ascii "b.urf"]).out = .ok 0 := by decide +kernel
  split at h
  · rename_i outFile file hf
    split at h
    · rename_i outs ho
      refine ⟨[ascii "a.pgm", ascii "b.urf"], outFile, file, outs, by constructor <;> decide, rfl, by decide, ?_, ho, h⟩
      rw [← hf, ← h0]
    · cases h
  · cases h

/-- C79 does not extend to different resolutions for URF: they are accepted, and an exception that nobody catches ends the program after the file header has
been written. (The full claim would be that the command line is refused.) -/
theorem C79_uncaught_false : ∃ (args : List Bytes) (e : Exn), (getArgs ppmOpts ppmPos args).success = true ∧
    ppmMain (oneDisk oneLine) args = { out := .throws e, file := some (ascii "b.urf", urfFileHdr 0) } :=
  ⟨[ascii "-rx", ascii "300", ascii "-ry", ascii "600", ascii "a.pgm", ascii "b.urf"], .logicError, by decide +kernel, by decide +kernel⟩

/-- C79 does not extend to the exit code when there is no room for the output: it is 0 although nothing is in the file. -/
theorem C79_room_false : ∃ (args : List Bytes) (d : Disk) (outFile file : Bytes), file ≠ [] ∧
    ppmMain { d with room := fun _ => none } args = { out := .ok 0, file := some (outFile, file) } ∧
    ppmMain { d with room := fun _ => some 0 } args = { out := .ok 0, file := some (outFile, []) } := by
  have h0 : (ppmMain { oneDisk oneLine with room := fun _ => none } [ascii "a.pgm", ascii "b.pwg"]).out = .ok 0 := by decide +kernel
  have h : (match (ppmMain { oneDisk oneLine with room := fun _ => none } [ascii "a.pgm", ascii "b.pwg"]).file with
    | some (n, file) => decide (n = ascii "b.pwg" ∧ file ≠ [])
    | none => false) = true := by decide +kernel
  split at h
  · rename_i outFile file hf
    have h := of_decide_eq_true h
    refine ⟨[ascii "a.pgm", ascii "b.pwg"], oneDisk oneLine, outFile, file, h.2, ?_, ?_⟩
    · rw [← hf, ← h0]
    · rw [h.1]; decide +kernel
  · cases h

/-- uses of options for the examples -/
def pnmUses : List Use :=
  [{ option := 5, words := [ascii "-r", ascii "600"], value := .num 600 }, { option := 3, words := [ascii "--num-pages", ascii "2"], value := .num 2 },
   { option := 13, words := [ascii "-mt", ascii "envelope"], value := .text (ascii "envelope") }]

theorem pnm_accounts : Accounts ppmOpts ppmPos [ascii "-r", ascii "600", ascii "--num-pages", ascii "2", ascii "-mt", ascii "envelope", ascii "a.pgm", ascii "b.urf"]
    pnmUses [ascii "a.pgm", ascii "b.urf"] := by
  refine ⟨by decide +kernel, ?_, ?_, ?_, by decide +kernel⟩
  · intro u hu
    simp only [pnmUses, List.mem_cons, List.not_mem_nil, or_false] at hu
    rcases hu with rfl | rfl | rfl
    · exact isUse_of (name := ascii "-r") (w := ascii "600") rfl rfl rfl rfl (by decide +kernel)
    · exact isUse_of (name := ascii "--num-pages") (w := ascii "2") rfl rfl rfl rfl (by decide +kernel)
    · exact isUse_of (name := ascii "-mt") (w := ascii "envelope") rfl rfl rfl rfl (by decide +kernel)
  · intro a ha
    cases ha
    have : ∀ o ∈ ppmOpts.map (·.names), ascii "a.pgm" ∉ o := by decide +kernel
    intro o ho
    exact this o.names (List.mem_map_of_mem ho)
  · intro i p hp hi
    match i, hp, hi with
    | 0, _, hi => simp at hi
    | 1, _, hi => simp at hi
    | i + 2, hp, _ => simp [ppmPos] at hp

/-- The hypotheses of the theorems are met, with a newline after two pictures. -/
example : lastUse pnmUses [ascii "-h", ascii "--help"] = none ∧ ¬ PnmRefused pnmUses (ascii "b.urf") ∧ NoPicture [10] ∧
    (ppmMain (oneDisk (plainPage.bytes ++ plainPage.bytes ++ [10]))
      [ascii "-r", ascii "600", ascii "--num-pages", ascii "2", ascii "-mt", ascii "envelope", ascii "a.pgm", ascii "b.urf"]).out = .ok 1 ∧
    Raster.Spec.Fits (plainPage.params pixelPoints (ppmParams (lastValue pnmUses) (ascii "b.urf"))) := by
  refine ⟨by rfl, ?_, ⟨by decide, by decide, [10], [], [], rfl, by decide, by decide, by simp, fun _ => rfl, by decide, by decide, by decide⟩,
    by decide +kernel, ?_⟩
  · rintro ⟨_, t, h1, h2⟩
    have : word pnmUses [ascii "-mt", ascii "--media-type"] = some (ascii "envelope") := by decide +kernel
    rw [this] at h1; cases h1
    exact h2 "envelope" 3 (by simp [Raster.Spec.urfMedia]) rfl
  · constructor <;> decide +kernel

/-- refused: URF has no such media type -/
example : PnmRefused [{ option := 13, words := [ascii "-mt", ascii "paper"], value := .text (ascii "paper") }] (ascii "b.urf") := by
  refine ⟨⟨.URF, .inl ⟨⟨ascii "b", by decide +kernel⟩, rfl⟩, by rfl⟩, ascii "paper", by decide +kernel, ?_⟩
  have : ∀ x ∈ Raster.Spec.urfMedia, ascii "paper" ≠ ascii x.1 := by decide +kernel
  exact fun s n h => this (s, n) h

end Verif.Convert
