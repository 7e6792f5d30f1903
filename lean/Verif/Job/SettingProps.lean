import Verif.Job.JobProps

/-!
# Properties of print jobs: C63, how the settings of a job arrive in the print parameters and in what is sent
-/

namespace Verif.Job

open Ipp

/-! ## Specification -/

namespace Spec

/-- A member of the media-col collection. -/
def member (name : Bytes) (a : Attrs) : Option Attr :=
  match KMap.get? a (ascii "media-col") with
  | some (_, .coll m) => KMap.get? m name
  | _ => none

/-- What a setting in media-col comes to: the member if it is there, else the printer's default, else nothing. -/
def effectiveMember (name : Bytes) (pa a : Attrs) : Option Value :=
  match member name a with
  | some x => some x.2
  | none => (KMap.get? pa (name ++ ascii "-default")).map Prod.snd

/-- The print-quality values (RFC 8011, 5.2.13) and the raster qualities; nothing else has a quality. -/
def qualities : List (Int × Quality) := [(3, .DraftQuality), (4, .NormalQuality), (5, .HighQuality)]

/-- The print-color-mode keywords (PWG 5100.13, 5.2.3) that ask for no colors. -/
def monochromeKeywords : List Bytes :=
  [ascii "auto-monochrome", ascii "bi-level", ascii "monochrome", ascii "process-bi-level", ascii "process-monochrome"]

/-- The print-color-mode keywords that leave it open. -/
def openKeywords : List Bytes := [ascii "auto", ascii "highlight"]

/-- The media positions of PWG raster with a name of their own (PWG 5102.4, table 12). -/
def namedPositions : List (Bytes × Nat) :=
  [(ascii "auto", 0), (ascii "main", 1), (ascii "alternate", 2), (ascii "large-capacity", 3), (ascii "manual", 4),
   (ascii "envelope", 5), (ascii "disc", 6), (ascii "photo", 7), (ascii "hagaki", 8), (ascii "main-roll", 9),
   (ascii "alternate-roll", 10), (ascii "top", 11), (ascii "middle", 12), (ascii "bottom", 13), (ascii "side", 14),
   (ascii "left", 15), (ascii "right", 16), (ascii "center", 17), (ascii "rear", 18), (ascii "by-pass-tray", 19)]

/-- The media position of PWG raster for a media-source keyword (PWG 5102.4, table 12). -/
def Position (name : Bytes) (p : Nat) : Prop :=
  (name, p) ∈ namedPositions ∨ (∃ n, 1 ≤ n ∧ n ≤ 20 ∧ name = ascii "tray-" ++ dec n ∧ p = 19 + n) ∨
  (∃ n, 1 ≤ n ∧ n ≤ 10 ∧ name = ascii "roll-" ++ dec n ∧ p = 39 + n)

/-- The margins in media-col. -/
def marginNames : List Bytes :=
  [ascii "media-top-margin", ascii "media-bottom-margin", ascii "media-left-margin", ascii "media-right-margin"]

end Spec

open Spec

/-! ## Settings in media-col -/

theorem get_member {s : Setting} (hs : s.subKey = ascii "media-col") {pa a : Attrs} {fb v : Value} (h : s.get pa a fb = .ok v) :
    (∃ x, member s.name a = some x ∧ getAs s.ty x.2 = .ok v) ∨
    (member s.name a = none ∧ Attrs.get pa s.ty (s.name ++ ascii "-default") fb = .ok v) := by
  unfold Setting.get Setting.isSet at h
  rw [if_pos (by rw [hs]; decide), hs] at h
  unfold member
  cases hg : KMap.get? a (ascii "media-col") with
  | none =>
    rw [hg] at h
    simp only [Outcome.bind_ok, Setting.getIf, Bool.false_eq_true, if_false, Setting.getDefault] at h
    exact .inr ⟨rfl, h⟩
  | some x =>
    obtain ⟨tag, w⟩ := x
    rw [hg] at h
    cases w <;> first | (simp only [Outcome.bind_eq_ok] at h; obtain ⟨_, h, _⟩ := h; cases h; done) | skip
    rename_i m
    simp only [Outcome.bind_ok, KMap.has, Setting.getIf] at h
    cases hm : KMap.get? m s.name with
    | none =>
      rw [hm] at h
      simp only [Option.isSome_none, Bool.false_eq_true, if_false, Setting.getDefault] at h
      exact .inr ⟨hm, h⟩
    | some x =>
      rw [hm] at h
      simp only [Option.isSome_some, if_true] at h
      rw [if_pos (by rw [hs]; decide), hs, hg] at h
      simp only [Setting.getAt, hm] at h
      exact .inl ⟨x, hm, h⟩

theorem getStr_member {s : Setting} (hs : s.subKey = ascii "media-col") (ht : s.ty = .str) {pa a : Attrs} {fb b : Bytes}
    (h : getStr s pa a fb = .ok b) : (effectiveMember s.name pa a).getD (.str fb) = .str b := by
  unfold getStr at h
  rw [Outcome.bind_eq_ok] at h
  obtain ⟨v, hv, h⟩ := h
  cases h
  unfold effectiveMember
  rcases get_member hs hv with ⟨x, hx, hy⟩ | ⟨hx, hy⟩
  · rw [hx]
    obtain ⟨rfl, hty⟩ := getAs_ok hy
    exact strOf_ty (hty.trans (by rw [ht]))
  · rw [hx]
    unfold Attrs.get at hy
    cases hd : KMap.get? pa (s.name ++ ascii "-default") with
    | none => rw [hd] at hy; cases hy; rfl
    | some x =>
      rw [hd] at hy
      obtain ⟨rfl, hty⟩ := getAs_ok hy
      exact strOf_ty (hty.trans (by rw [ht]))

theorem getInt_member {s : Setting} (hs : s.subKey = ascii "media-col") (ht : s.ty = .int) {pa a : Attrs} {fb b : Int}
    (h : getInt s pa a fb = .ok b) : (effectiveMember s.name pa a).getD (.int fb) = .int b := by
  unfold getInt at h
  rw [Outcome.bind_eq_ok] at h
  obtain ⟨v, hv, h⟩ := h
  cases h
  unfold effectiveMember
  rcases get_member hs hv with ⟨x, hx, hy⟩ | ⟨hx, hy⟩
  · rw [hx]
    obtain ⟨rfl, hty⟩ := getAs_ok hy
    exact intOf_ty (hty.trans (by rw [ht]))
  · rw [hx]
    unfold Attrs.get at hy
    cases hd : KMap.get? pa (s.name ++ ascii "-default") with
    | none => rw [hd] at hy; cases hy; rfl
    | some x =>
      rw [hd] at hy
      obtain ⟨rfl, hty⟩ := getAs_ok hy
      exact intOf_ty (hty.trans (by rw [ht]))

theorem isSet_member {s : Setting} (hs : s.subKey = ascii "media-col") {a : Attrs} {b : Bool} (h : s.isSet a = .ok b) :
    b = (member s.name a).isSome := by
  unfold Setting.isSet at h
  rw [if_pos (by rw [hs]; decide), hs] at h
  unfold member
  cases hg : KMap.get? a (ascii "media-col") with
  | none => rw [hg] at h; cases h; rfl
  | some x =>
    obtain ⟨tag, w⟩ := x
    rw [hg] at h
    cases w <;> first | (cases h; done) | skip
    cases h; rfl

theorem subCollection_member {a m : Attrs} (h : subCollection a (ascii "media-col") = .ok m) (n : Bytes) :
    member n a = KMap.get? m n := by
  unfold subCollection at h
  unfold member
  split at h
  · rename_i hg; cases h; rw [hg]
  · cases h
  · rename_i hg; cases h; rw [hg]; rfl

theorem unset_member {s : Setting} (hs : s.subKey = ascii "media-col") {a a' : Attrs} (h : s.unset a = .ok a') (n : Bytes) :
    member n a' = if n = s.name then none else member n a := by
  unfold Setting.unset at h
  rw [if_pos (by rw [hs]; decide), hs, Outcome.bind_eq_ok] at h
  obtain ⟨m, hm, h⟩ := h
  cases h
  rw [subCollection_member hm, ← KMap.get?_erase]
  unfold Setting.putBack
  by_cases he : KMap.erase m s.name = []
  · rw [if_pos he, he]
    unfold member
    rw [KMap.get?_erase, if_pos rfl]; rfl
  · rw [if_neg he]
    unfold member
    rw [KMap.get?_assign_any, if_pos rfl]

/-! ## What happens to media-col -/

theorem member_congr {a a' : Attrs} (h : KMap.get? a' (ascii "media-col") = KMap.get? a (ascii "media-col")) (n : Bytes) :
    member n a' = member n a := by unfold member; rw [h]

theorem effectiveMember_congr {a a' : Attrs} {n : Bytes} (h : member n a' = member n a) (pa : Attrs) :
    effectiveMember n pa a' = effectiveMember n pa a := by unfold effectiveMember; rw [h]

theorem if_chain {α : Type} (a b c d n : Bytes) (x : Option α) :
    (if n = d then none else if n = c then none else if n = b then none else if n = a then none else x) =
      if n ∈ [a, b, c, d] then none else x := by
  simp only [List.mem_cons, List.not_mem_nil, or_false]
  by_cases h4 : n = d
  · rw [if_pos h4, if_pos (.inr (.inr (.inr h4)))]
  by_cases h3 : n = c
  · rw [if_neg h4, if_pos h3, if_pos (.inr (.inr (.inl h3)))]
  by_cases h2 : n = b
  · rw [if_neg h4, if_neg h3, if_pos h2, if_pos (.inr (.inl h2))]
  by_cases h1 : n = a
  · rw [if_neg h4, if_neg h3, if_neg h2, if_pos h1, if_pos (.inl h1)]
  rw [if_neg h4, if_neg h3, if_neg h2, if_neg h1, if_neg]
  rintro (hn | hn | hn | hn)
  · exact h1 hn
  · exact h2 hn
  · exact h3 hn
  · exact h4 hn

/-- The margins after `takeMargins`. -/
theorem takeMargins_members {j j' : PrintJob} (h : takeMargins j = .ok j') :
    (isImage j.targetFormat = true ∧ j' = j) ∨
    (isImage j.targetFormat = false ∧ (∀ n, member n j'.jobAttrs = if n ∈ marginNames then none else member n j.jobAttrs) ∧
      (effectiveMember (ascii "media-top-margin") j.printerAttrs j.jobAttrs).getD (.int 0) = .int j'.margins.top ∧
      (effectiveMember (ascii "media-bottom-margin") j.printerAttrs j.jobAttrs).getD (.int 0) = .int j'.margins.bottom ∧
      (effectiveMember (ascii "media-left-margin") j.printerAttrs j.jobAttrs).getD (.int 0) = .int j'.margins.left ∧
      (effectiveMember (ascii "media-right-margin") j.printerAttrs j.jobAttrs).getD (.int 0) = .int j'.margins.right) := by
  unfold takeMargins at h
  split at h
  · rename_i hi
    cases h; exact .inl ⟨hi, rfl⟩
  · rename_i hi
    rw [Outcome.bind_eq_ok] at h; obtain ⟨_, g1, h⟩ := h
    rw [Outcome.bind_eq_ok] at h; obtain ⟨_, g2, h⟩ := h
    rw [Outcome.bind_eq_ok] at h; obtain ⟨_, g3, h⟩ := h
    rw [Outcome.bind_eq_ok] at h; obtain ⟨_, g4, h⟩ := h
    rw [Outcome.bind_eq_ok] at h; obtain ⟨_, h1, h⟩ := h
    rw [Outcome.bind_eq_ok] at h; obtain ⟨_, h2, h⟩ := h
    rw [Outcome.bind_eq_ok] at h; obtain ⟨_, h3, h⟩ := h
    rw [Outcome.bind_eq_ok] at h; obtain ⟨_, h4, h⟩ := h
    cases h
    refine .inr ⟨by simpa using hi, fun n => ?_, getInt_member rfl rfl g1, getInt_member rfl rfl g2, getInt_member rfl rfl g3,
      getInt_member rfl rfl g4⟩
    show member n _ = _
    rw [unset_member rfl h4, unset_member rfl h3, unset_member rfl h2, unset_member rfl h1]
    exact if_chain _ _ _ _ n _

/-- The media size in media-col, in 1/100 mm. -/
def mediaSize (x y : Int) : Attr :=
  (tBeginCollection, .coll [(ascii "x-dimension", (tInteger, .int x)), (ascii "y-dimension", (tInteger, .int y))])

/-- What `addMediaSize` does. -/
theorem addMediaSize_members {j j' : PrintJob} (h : addMediaSize j = .ok j') :
    (¬ (KMap.has j.jobAttrs (ascii "media-col") = true ∧ KMap.has j.jobAttrs (ascii "media") = true) ∧ j' = j) ∨
    (KMap.has j.jobAttrs (ascii "media-col") = true ∧ KMap.has j.jobAttrs (ascii "media") = true ∧
      KMap.get? j'.jobAttrs (ascii "media") = none ∧ KMap.has j'.jobAttrs (ascii "media-col") = true ∧
      ∃ x y, hundredths (paperWInMillimeters j.paper j.params) = .ok x ∧
        hundredths (paperHInMillimeters j.paper j.params) = .ok y ∧
        ∀ n, member n j'.jobAttrs = if n = ascii "media-size" then some (mediaSize x y) else member n j.jobAttrs) := by
  unfold addMediaSize at h
  rw [isSet_top rfl, Outcome.bind_ok] at h
  split at h
  · rename_i hc
    rw [Outcome.bind_eq_ok] at h; obtain ⟨x, hx, h⟩ := h
    rw [Outcome.bind_eq_ok] at h; obtain ⟨y, hy, h⟩ := h
    rw [Outcome.bind_eq_ok] at h; obtain ⟨m, hm, h⟩ := h
    rw [unset_top rfl, Outcome.bind_ok] at h
    cases h
    refine .inr ⟨hc.1, hc.2, (KMap.get?_erase _ _ _).trans (if_pos rfl), ?_, x, y, hx, hy, fun n => ?_⟩
    · show (KMap.get? _ _).isSome = true
      rw [KMap.get?_erase, if_neg (by decide), KMap.get?_assign_any, if_pos rfl]; rfl
    · rw [subCollection_member hm]
      unfold member
      show (match KMap.get? (KMap.erase (KMap.assign j.jobAttrs (ascii "media-col") (withMediaSize m x y)) (ascii "media"))
        (ascii "media-col") with | some (_, .coll m) => KMap.get? m n | _ => none) = _
      rw [KMap.get?_erase, if_neg (by decide), KMap.get?_assign_any, if_pos rfl]
      exact KMap.get?_assign_any _ _ _ _
  · rename_i hc
    cases h
    exact .inl ⟨hc, rfl⟩

/-- The attributes of the job from `addMediaSize` to the end. -/
theorem jobAttrs_end {pl : Pipelines} {input : Bytes} {pages : Int} {j j' : PrintJob} (r : Run pl input pages j j') :
    SameBut [ascii "page-ranges", ascii "printer-resolution", ascii "copies", ascii "sides"] r.j5.jobAttrs j'.jobAttrs := by
  have ha := after_frame r
  have hf := adjustRaster_frame r.h8
  obtain ⟨v, _, e6⟩ := takeResolution_ok r.h6
  have h7 : SameBut [ascii "page-ranges"] r.j5.jobAttrs r.j7.jobAttrs := by
    have e : r.j6.jobAttrs = r.j5.jobAttrs := by rw [e6]; rfl
    rcases takeRanges_ok r.h7 with ⟨_, e7⟩ | ⟨_, l, _, e7⟩
    · rw [e7, e]; exact SameBut.refl _ _
    · rw [e7, ← e]; exact sameBut_erase _ _
  rw [ha.jobAttrs]
  exact (h7.mono (by simp)).trans (hf.jobAttrs.mono (by simp))

/-- The attributes of the job, the target and the printer before `takeMargins`. -/
theorem jobAttrs_start {pl : Pipelines} {input : Bytes} {pages : Int} {j j' : PrintJob} (r : Run pl input pages j j') :
    r.j3.jobAttrs = j.jobAttrs ∧ r.j3.printerAttrs = j.printerAttrs ∧ r.j3.targetFormat = j'.targetFormat ∧
      r.j3.margins = j.margins ∧ r.j3.params.hwResW = j.params.hwResW ∧ r.j3.params.hwResH = j.params.hwResH := by
  have hb := before_raster r
  have hf := adjustRaster_frame r.h8
  have ha := after_frame r
  have ht : j'.targetFormat = r.target := by rw [ha.targetFormat, hf.targetFormat, hb.targetFormat]
  rw [ht]
  obtain ⟨f, e1, _⟩ := setDocumentFormat_ok r.h1
  obtain ⟨op, e2, _⟩ := setCompression_ok r.h2
  obtain ⟨p, e3⟩ := setPaper_ok r.h3
  rw [e3, e2, e1]
  exact ⟨rfl, rfl, rfl, rfl, rfl, rfl⟩

/-- A member other than the margins and the media size is kept. -/
theorem member_kept {pl : Pipelines} {input : Bytes} {pages : Int} {j j' : PrintJob} (r : Run pl input pages j j')
    {n : Bytes} (hm : n ∉ marginNames) (hsz : n ≠ ascii "media-size") : member n j'.jobAttrs = member n j.jobAttrs := by
  rw [member_congr (jobAttrs_end r (ascii "media-col") (by decide))]
  obtain ⟨s1, _⟩ := jobAttrs_start r
  have h4 : member n r.j4.jobAttrs = member n j.jobAttrs := by
    rcases takeMargins_members r.h4 with ⟨_, e⟩ | ⟨_, e, _⟩
    · rw [e, s1]
    · rw [e, if_neg hm, s1]
  rw [← h4]
  rcases addMediaSize_members r.h5 with ⟨_, e⟩ | ⟨_, _, _, _, x, y, _, _, e⟩
  · rw [e]
  · rw [e, if_neg hsz]

/-! ## C63 -/

theorem findIdx_range_map {α : Type} [DecidableEq α] (f : Nat → α) (n k : Nat) (x : α)
    (h : ((List.range n).map f).findIdx? (· = x) = some k) : k < n ∧ f k = x := by
  obtain ⟨hl, hx, _⟩ := List.findIdx?_eq_some_iff_getElem.mp h
  simp only [List.length_map, List.length_range] at hl
  simp only [List.getElem_map, List.getElem_range, decide_eq_true_eq] at hx
  exact ⟨hl, hx⟩

theorem mediaPositions_eq : mediaPositions = namedPositions.map Prod.fst ++
    ((List.range 20).map (fun i => ascii "tray-" ++ dec (i + 1)) ++ (List.range 10).map (fun i => ascii "roll-" ++ dec (i + 1))) := by
  unfold mediaPositions
  rw [List.append_assoc]
  rfl

/-- The table of media positions is that of the specification. -/
theorem mediaPosition_ok {name : Bytes} {p : Nat} (h : mediaPosition name = .ok p) : Position name p := by
  unfold mediaPosition at h
  cases hf : mediaPositions.findIdx? (· = name) with
  | none => rw [hf] at h; cases h
  | some i =>
    rw [hf] at h; cases h
    rw [mediaPositions_eq, List.findIdx?_append, List.findIdx?_append] at hf
    simp only [List.length_map, List.length_range] at hf
    have h20 : namedPositions.length = 20 := rfl
    rw [h20] at hf
    cases h1 : (namedPositions.map Prod.fst).findIdx? (· = name) with
    | some i =>
      rw [h1] at hf
      cases hf
      obtain ⟨hl, hx, _⟩ := List.findIdx?_eq_some_iff_getElem.mp h1
      simp only [List.length_map] at hl
      simp only [List.getElem_map, decide_eq_true_eq] at hx
      have hnum : ∀ k (hk : k < namedPositions.length), (namedPositions[k]).2 = k := by decide +kernel
      refine .inl ?_
      have := List.getElem_mem hl
      rwa [show namedPositions[p] = (name, p) from Prod.ext hx (hnum p hl)] at this
    | none =>
      rw [h1] at hf
      cases h2 : ((List.range 20).map (fun i => ascii "tray-" ++ dec (i + 1))).findIdx? (· = name) with
      | some i =>
        rw [h2] at hf
        obtain ⟨hi, he⟩ := findIdx_range_map _ _ _ _ h2
        simp only [Option.none_or, Option.some_or, Option.map_some, Option.some.injEq] at hf
        exact .inr (.inl ⟨i + 1, by omega, by omega, he.symm, by omega⟩)
      | none =>
        rw [h2] at hf
        cases h3 : ((List.range 10).map (fun i => ascii "roll-" ++ dec (i + 1))).findIdx? (· = name) with
        | none => rw [h3] at hf; simp at hf
        | some i =>
          rw [h3] at hf
          obtain ⟨hi, he⟩ := findIdx_range_map _ _ _ _ h3
          simp only [Option.none_or, Option.map_some, Option.some.injEq] at hf
          exact .inr (.inr ⟨i + 1, by omega, by omega, he.symm, by omega⟩)

/-- C63, quality: print-quality 3, 4 or 5, asked for in the job or else the printer's default, becomes the raster's quality; without
either it is the default quality. -/
theorem C63_quality (pl : Pipelines) (input : Bytes) (pages : Int) (j j' : PrintJob)
    (h : finalize pl input pages j = .ok (none, j')) :
    ∃ q, (effective (ascii "print-quality") j.printerAttrs j.jobAttrs).getD (.int 0) = .int q ∧
      ((∃ k, (q, k) ∈ qualities ∧ j'.params.quality = k) ∨ ((∀ k, (q, k) ∉ qualities) ∧ j'.params.quality = .DefaultQuality)) := by
  obtain ⟨r⟩ := finalize_run h
  have hb := before_raster r
  have hf := adjustRaster_frame r.h8
  obtain ⟨s, q, l, m, mp, mt, _, hq, _, _, _, _, e⟩ := after_raster r
  have hq := getInt_effective rfl rfl hq
  rw [hf.printerAttrs, hb.printerAttrs, effective_congr (hf.jobAttrs _ (by decide)), effective_congr (hb.jobAttrs _ (by decide))] at hq
  refine ⟨q, hq, ?_⟩
  have hqe : j'.params.quality = qualityOf q := by rw [e]
  rw [hqe]
  unfold qualityOf qualities
  by_cases h3 : q = 3
  · subst h3; exact .inl ⟨_, by simp, rfl⟩
  by_cases h4 : q = 4
  · subst h4; exact .inl ⟨_, by simp, rfl⟩
  by_cases h5 : q = 5
  · subst h5; exact .inl ⟨_, by simp, rfl⟩
  refine .inr ⟨fun k hk => ?_, by simp [h3, h4, h5]⟩
  simp [h3, h4, h5] at hk

/-- C63, colors, in full: the keywords for monochrome give gray raster, "color" gives colors, and the open keywords (or none) give gray
if the printer has no colors. -/
def C63_colors_full : Prop := ∀ (pl : Pipelines) (input : Bytes) (pages : Int) (j j' : PrintJob) (m : Bytes),
  finalize pl input pages j = .ok (none, j') →
  (effective (ascii "print-color-mode") j.printerAttrs j.jobAttrs).getD (.str []) = .str m →
    (m ∈ monochromeKeywords → j'.params.colorMode = .Gray8) ∧
    (m = ascii "color" → j'.params.colorMode = .sRGB24) ∧
    (m ∈ openKeywords ∨ m = [] →
      ¬ Ipp.Spec.Declares (KMap.get? j.printerAttrs (ascii "print-color-mode-supported")) (.str (ascii "color")) →
        j'.params.colorMode = .Gray8)

theorem colorMode_of {pl : Pipelines} {input : Bytes} {pages : Int} {j j' : PrintJob} {m : Bytes}
    (h : finalize pl input pages j = .ok (none, j'))
    (hm : (effective (ascii "print-color-mode") j.printerAttrs j.jobAttrs).getD (.str []) = .str m) :
    ∃ l, (∀ x, x ∈ l ↔ Ipp.Spec.Declares (KMap.get? j.printerAttrs (ascii "print-color-mode-supported")) (.str x)) ∧
      j'.params.colorMode = colorModeOf l m j.params.colorMode := by
  obtain ⟨r⟩ := finalize_run h
  have hb := before_raster r
  have hf := adjustRaster_frame r.h8
  obtain ⟨s, q, l, m', mp, mt, _, _, hl, hm', _, _, e⟩ := after_raster r
  have hm' := getStr_effective rfl rfl hm'
  rw [hf.printerAttrs, hb.printerAttrs, effective_congr (hf.jobAttrs _ (by decide)), effective_congr (hb.jobAttrs _ (by decide))] at hm'
  have hmm : m' = m := by
    have := hm'.symm.trans hm
    simpa using this
  subst hmm
  rw [hf.printerAttrs, hb.printerAttrs] at hl
  refine ⟨l, fun x => mem_strList hl x, ?_⟩
  rw [e]
  show colorModeOf l m' r.j8.params.colorMode = _
  rw [hf.colorMode, hb.colorMode]

/-- C63, colors: all keywords but the two for bi-level. With those the raster is gray if the printer has no colors, and otherwise
remains what it was set to (colors, unless changed). Missing to the full claim: the raster for bi-level when the printer has colors. -/
theorem C63_colors_partial (pl : Pipelines) (input : Bytes) (pages : Int) (j j' : PrintJob) (m : Bytes)
    (h : finalize pl input pages j = .ok (none, j'))
    (hm : (effective (ascii "print-color-mode") j.printerAttrs j.jobAttrs).getD (.str []) = .str m) :
    (m ∈ monochromeKeywords → m ≠ ascii "bi-level" → m ≠ ascii "process-bi-level" → j'.params.colorMode = .Gray8) ∧
    (m = ascii "color" → j'.params.colorMode = .sRGB24) ∧
    (m ∈ openKeywords ∨ m ∈ monochromeKeywords ∨ m = [] →
      ¬ Ipp.Spec.Declares (KMap.get? j.printerAttrs (ascii "print-color-mode-supported")) (.str (ascii "color")) →
        j'.params.colorMode = .Gray8) ∧
    (m ∈ openKeywords ∨ m = [] →
      Ipp.Spec.Declares (KMap.get? j.printerAttrs (ascii "print-color-mode-supported")) (.str (ascii "color")) →
        j'.params.colorMode = j.params.colorMode) := by
  obtain ⟨l, hl, e⟩ := colorMode_of h hm
  rw [e]
  have hnc : m ∈ openKeywords ∨ m ∈ monochromeKeywords ∨ m = [] → Text.contains m (ascii "color") = false := by
    intro hx
    simp only [openKeywords, monochromeKeywords, List.mem_cons, List.not_mem_nil, or_false] at hx
    rcases hx with (rfl | rfl) | (rfl | rfl | rfl | rfl | rfl) | rfl <;> decide +kernel
  refine ⟨fun h1 h2 h3 => ?_, fun h1 => ?_, fun h1 h2 => ?_, fun h1 h2 => ?_⟩
  · unfold colorModeOf
    rw [if_neg (by rw [hnc (.inr (.inl h1))]; decide)]
    simp only [monochromeKeywords, List.mem_cons, List.not_mem_nil, or_false] at h1
    rw [if_pos]
    left
    rcases h1 with rfl | rfl | rfl | rfl | rfl
    · decide +kernel
    · exact absurd rfl h2
    · decide +kernel
    · exact absurd rfl h3
    · decide +kernel
  · unfold colorModeOf
    rw [if_pos (by rw [h1]; decide +kernel)]
  · unfold colorModeOf
    rw [if_neg (by rw [hnc h1]; decide), if_pos (.inr (fun hc => h2 ((hl _).mp (List.contains_iff_mem.mp hc))))]
  · unfold colorModeOf
    have hmo : Text.contains m (ascii "monochrome") = false := by
      simp only [openKeywords, List.mem_cons, List.not_mem_nil, or_false] at h1
      rcases h1 with (rfl | rfl) | rfl <;> decide +kernel
    rw [if_neg (by rw [hnc (h1.elim .inl (fun h => .inr (.inr h)))]; decide), if_neg]
    rintro (hx | hx)
    · rw [hmo] at hx; cases hx
    · exact hx (List.contains_iff_mem.mpr ((hl _).mpr h2))

/-- C63, media type: the media-type asked for in the job, else the printer's default, else none, is that of the raster. -/
theorem C63_media_type (pl : Pipelines) (input : Bytes) (pages : Int) (j j' : PrintJob)
    (h : finalize pl input pages j = .ok (none, j')) :
    (effectiveMember (ascii "media-type") j.printerAttrs j.jobAttrs).getD (.str []) = .str j'.params.mediaType := by
  obtain ⟨r⟩ := finalize_run h
  have hb := before_raster r
  have hf := adjustRaster_frame r.h8
  have ha := after_frame r
  obtain ⟨s, q, l, m, mp, mt, _, _, _, _, _, ht, e⟩ := after_raster r
  have ht := getStr_member rfl rfl ht
  rw [hf.printerAttrs, hb.printerAttrs, ← ha.jobAttrs,
    effectiveMember_congr (member_kept r (by decide) (by decide))] at ht
  rw [e]; exact ht

/-- C63, media source: the raster's media position is the number of the media-source asked for in the job; without one, it is left as it
was. -/
theorem C63_media_source (pl : Pipelines) (input : Bytes) (pages : Int) (j j' : PrintJob)
    (h : finalize pl input pages j = .ok (none, j')) :
    (∀ x, member (ascii "media-source") j.jobAttrs = some x → ∃ name, x.2 = .str name ∧ Position name j'.params.mediaPosition) ∧
    (member (ascii "media-source") j.jobAttrs = none → j'.params.mediaPosition = j.params.mediaPosition) := by
  obtain ⟨r⟩ := finalize_run h
  have hb := before_raster r
  have hf := adjustRaster_frame r.h8
  have ha := after_frame r
  have hk := member_kept r (n := ascii "media-source") (by decide) (by decide)
  obtain ⟨s, q, l, m, mp, mt, _, _, _, _, ⟨b, hbs, hmp⟩, _, e⟩ := after_raster r
  have hbe := isSet_member rfl hbs
  rw [← ha.jobAttrs] at hbe
  have hpos : j'.params.mediaPosition = mp := by rw [e]
  refine ⟨fun x hx => ?_, fun hx => ?_⟩
  · rw [show member sMediaSource.name j'.jobAttrs = some x from hk.trans hx] at hbe
    subst hbe
    rw [if_pos (by rfl)] at hmp
    obtain ⟨src, hsrc, hp⟩ := hmp
    have he := getStr_member rfl rfl hsrc
    rw [← ha.jobAttrs] at he
    unfold effectiveMember at he
    rw [show member sMediaSource.name j'.jobAttrs = some x from hk.trans hx] at he
    rw [hpos]
    exact ⟨src, he, mediaPosition_ok hp⟩
  · rw [show member sMediaSource.name j'.jobAttrs = none from hk.trans hx] at hbe
    subst hbe
    rw [if_neg (by simp)] at hmp
    rw [hpos, hmp, hf.mediaPosition, hb.mediaPosition]

/-- C63, what is sent: the settings that the printer takes care of are sent as they were: all attributes but media, media-col,
page-ranges, printer-resolution, copies and sides (see C64, C32, C31, C33 for these). -/
theorem C63_sent_as_asked (pl : Pipelines) (input : Bytes) (pages : Int) (j j' : PrintJob)
    (h : finalize pl input pages j = .ok (none, j')) (k : Bytes)
    (hk : k ∉ [ascii "media-col", ascii "media", ascii "page-ranges", ascii "printer-resolution", ascii "copies", ascii "sides"]) :
    KMap.get? j'.jobAttrs k = KMap.get? j.jobAttrs k := by
  obtain ⟨r⟩ := finalize_run h
  have hb := before_raster r
  have hf := adjustRaster_frame r.h8
  have ha := after_frame r
  simp only [List.mem_cons, List.not_mem_nil, or_false, not_or] at hk
  rw [ha.jobAttrs, hf.jobAttrs k (by simp [hk.2.2.2.1, hk.2.2.2.2]), hb.jobAttrs k (by simp [hk.1, hk.2.1, hk.2.2.1])]

/-- A job with settings for the raster, for a printer with colors. -/
def settingsJob (colorMode source : Bytes) : PrintJob :=
  { PrintJob.new (KMap.assign examplePrinter (ascii "print-color-mode-supported")
      (0x44, .set [.str (ascii "auto"), .str (ascii "bi-level"), .str (ascii "color"), .str (ascii "monochrome")])) [] with
    jobAttrs := [(ascii "media", (0x44, .str (ascii "na_letter_8.5x11in"))),
      (ascii "media-col", (tBeginCollection, .coll [(ascii "media-source", (0x44, .str source)),
        (ascii "media-top-margin", (0x21, .int 500)), (ascii "media-type", (0x44, .str (ascii "stationery")))])),
      (ascii "print-color-mode", (0x44, .str colorMode)), (ascii "print-quality", (0x23, .int 5))] }

example : (match finalize defaultPipelines pdf 7 (settingsJob (ascii "monochrome") (ascii "tray-3")) with
    | .ok (none, j') => j'.params.quality == .HighQuality && j'.params.colorMode == .Gray8 && j'.params.mediaPosition == 22 &&
        j'.params.mediaType == ascii "stationery"
    | _ => false) = true := by decide +kernel

/-- C63, colors, is false of the code in full: asked for bi-level, a printer with colors gets a color raster. -/
theorem C63_colors_false : ¬ C63_colors_full := by
  intro hfull
  obtain ⟨j', hj⟩ := finalized_ok (pl := defaultPipelines) (input := pdf) (pages := 7)
    (j := settingsJob (ascii "bi-level") (ascii "tray-3")) (by decide +kernel)
  have h1 := (hfull _ _ _ _ _ (ascii "bi-level") hj (by decide +kernel)).1 (by decide +kernel)
  have h2 : (match finalize defaultPipelines pdf 7 (settingsJob (ascii "bi-level") (ascii "tray-3")) with
    | .ok (none, j') => j'.params.colorMode == .sRGB24
    | _ => false) = true := by decide +kernel
  rw [hj] at h2
  simp only [beq_iff_eq] at h2
  rw [h1] at h2
  cases h2

/-- The job can be finalized whatever keyword the media source is. -/
def C63_any_source : Prop := ∀ (pl : Pipelines) (input : Bytes) (pages : Int) (j j' : PrintJob) (source : Bytes),
  finalize pl input pages j = .ok (none, j') → member (ascii "media-source") j.jobAttrs = none →
    ∃ a j'', sMediaSource.set (.str source) j.jobAttrs = .ok a ∧ finalize pl input pages { j with jobAttrs := a } = .ok (none, j'')

/-- A keyword without a media position ends the job with an exception (`std::map::at`), also when the printer supports it and even if no
raster is made. -/
theorem C63_any_source_false : ¬ C63_any_source := by
  intro hfull
  obtain ⟨j', hj⟩ := finalized_ok (pl := defaultPipelines) (input := pdf) (pages := 7) (j := exampleJob) (by decide +kernel)
  obtain ⟨a, j'', ha, hf⟩ := hfull _ _ _ _ _ (ascii "tray-21") hj (by decide +kernel)
  have h2 : (match sMediaSource.set (.str (ascii "tray-21")) exampleJob.jobAttrs with
    | .ok a => finalized defaultPipelines pdf 7 { exampleJob with jobAttrs := a }
    | _ => false) = false := by decide +kernel
  rw [ha] at h2
  simp only [finalized, hf] at h2
  cases h2

end Verif.Job
