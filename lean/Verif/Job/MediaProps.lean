import Verif.Job.SettingProps
import Verif.Params.SizeProps

/-!
# C64: the paper and the margins of a job
-/

namespace Verif.Job

open Ipp

/-! ## Specification -/

namespace Spec

open Verif.Spec (lengthInInches)

/-- `x` is the length of the number `v` in a paper size name that ends with `unit`, in 1/100 mm, up to 2 (and a relative error of 2^-47). -/
def AboutHundredths (x : Int) (unit : Bytes) (v : Rat) : Prop :=
  let e := lengthInInches unit v * 2540
  e - e / 2 ^ 47 - 2 < x ∧ (x : Rat) < e + e / 2 ^ 47 + 1

end Spec

open Verif.Job.Spec
open Verif.Spec (lengthInInches AboutHundredth)

/-! ## Lemmas -/

theorem frame_paper {pl : Pipelines} {input : Bytes} {pages : Int} {j j' : PrintJob} (r : Run pl input pages j j') :
    r.j4.paper = r.j3.paper ∧ j'.paper = r.j3.paper ∧ j'.margins = r.j4.margins := by
  obtain ⟨s, q, l, m, mp, mt, _, _, _, _, _, _, e⟩ := after_raster r
  have h8 : j'.paper = r.j8.paper ∧ j'.margins = r.j8.margins := by
    have e1 := congrArg PrintJob.paper e
    have e2 := congrArg PrintJob.margins e
    exact ⟨e1, e2⟩
  have h7 : r.j8.paper = r.j7.paper ∧ r.j8.margins = r.j7.margins := by
    rcases adjustRaster_ok r.h8 with ⟨_, e⟩ | ⟨_, w, hh, b, _, _, hc⟩
    · rw [e]; exact ⟨rfl, rfl⟩
    · obtain ⟨n, bb, _, _, ⟨_, e⟩ | ⟨_, _, c, a, sides, _, _, hd⟩⟩ := adjustCopies_ok hc
      · rw [e]; exact ⟨rfl, rfl⟩
      · rcases dropDuplex_ok hd with e | e <;> rw [e] <;> exact ⟨rfl, rfl⟩
  have h6 : r.j7.paper = r.j6.paper ∧ r.j7.margins = r.j6.margins := by
    rcases takeRanges_ok r.h7 with ⟨_, e⟩ | ⟨_, l, _, e⟩ <;> rw [e] <;> exact ⟨rfl, rfl⟩
  have h5 : r.j6.paper = r.j5.paper ∧ r.j6.margins = r.j5.margins := by
    obtain ⟨v, _, e⟩ := takeResolution_ok r.h6
    rw [e]; exact ⟨rfl, rfl⟩
  have h4 : r.j5.paper = r.j4.paper ∧ r.j5.margins = r.j4.margins := by
    have h := r.h5
    unfold addMediaSize at h
    rw [isSet_top rfl, Outcome.bind_ok] at h
    split at h
    · rw [Outcome.bind_eq_ok] at h; obtain ⟨x, hx, h⟩ := h
      rw [Outcome.bind_eq_ok] at h; obtain ⟨y, hy, h⟩ := h
      rw [Outcome.bind_eq_ok] at h; obtain ⟨m, hm, h⟩ := h
      rw [unset_top rfl, Outcome.bind_ok] at h
      injection h with h
      rw [← h]; exact ⟨rfl, rfl⟩
    · injection h with h
      rw [← h]; exact ⟨rfl, rfl⟩
  have h3 : r.j4.paper = r.j3.paper := by
    have h := r.h4
    unfold takeMargins at h
    split at h
    · injection h with h
      rw [← h]
    · rw [Outcome.bind_eq_ok] at h; obtain ⟨_, _, h⟩ := h
      rw [Outcome.bind_eq_ok] at h; obtain ⟨_, _, h⟩ := h
      rw [Outcome.bind_eq_ok] at h; obtain ⟨_, _, h⟩ := h
      rw [Outcome.bind_eq_ok] at h; obtain ⟨_, _, h⟩ := h
      rw [Outcome.bind_eq_ok] at h; obtain ⟨_, _, h⟩ := h
      rw [Outcome.bind_eq_ok] at h; obtain ⟨_, _, h⟩ := h
      rw [Outcome.bind_eq_ok] at h; obtain ⟨_, _, h⟩ := h
      rw [Outcome.bind_eq_ok] at h; obtain ⟨_, _, h⟩ := h
      injection h with h
      rw [← h]
  exact ⟨h3, by rw [h8.1, h7.1, h6.1, h5.1, h4.1, h3], by rw [h8.2, h7.2, h6.2, h5.2, h4.2]⟩

/-- The paper after `setPaper`. -/
theorem setPaper_paper {j j' : PrintJob} (h : setPaper j = .ok (true, j')) :
    ∃ name, (effective (ascii "media") j.printerAttrs j.jobAttrs).getD (.str j.paper.name) = .str name ∧
      setPaperSize j.paper name = ⟨.ok true, j'.paper⟩ := by
  unfold setPaper at h
  rw [Outcome.bind_eq_ok] at h; obtain ⟨name, hn, h⟩ := h
  rw [Outcome.bind_eq_ok] at h; obtain ⟨ok, hok, h⟩ := h
  injection h with h
  have h1 := congrArg Prod.fst h
  have h2 := congrArg Prod.snd h
  simp only at h1 h2
  refine ⟨name, getStr_effective rfl rfl hn, ?_⟩
  subst h1
  rw [← h2, ← hok]

/-- A paper that is accepted has a name with sizes. -/
theorem setPaperSize_true {p p' : Paper} {s : Bytes} (h : setPaperSize p s = ⟨.ok true, p'⟩) :
    ∃ wi wf hi hf unit, PaperName s wi wf hi hf unit ∧ IsAbout p'.w wi wf ∧ IsAbout p'.h hi hf ∧
      p'.units = (if unit = ascii "in" then .Inches else .Millimeters) ∧ p'.name = s := by
  have num : ∀ {x : Bytes} {v : Rat}, matchNumber x = true → fromString x = .ok v → ∃ i f, DecimalText x i f ∧ IsAbout v i f := by
    intro x v hm hf
    obtain ⟨i, f, hx⟩ := (matchNumber_iff x).mp hm
    obtain ⟨h1, h2⟩ := fromString_fits hx hf
    rw [fromString_spec hx h1 h2] at hf
    cases hf
    refine ⟨i, f, hx, decimalDouble_near i f, decimalDouble_short ?_⟩
    cases hx with
    | whole h => simp
    | frac _ h => exact h.2
  unfold setPaperSize at h
  cases hm : matchPaper s with
  | none => rw [hm] at h; cases h
  | some m =>
    obtain ⟨m1, m3, m5⟩ := m
    rw [hm] at h
    simp only at h
    cases hw : fromString m1 with
    | ok w =>
      rw [hw] at h
      simp only at h
      cases hh : fromString m3 with
      | ok hv =>
        rw [hh] at h
        simp only at h
        obtain ⟨name, h1, h2, h3, h4, h5, h6⟩ := matchPaper_sound hm
        obtain ⟨wi, wf, t1, a1⟩ := num h3 hw
        obtain ⟨hi, hf, t2, a2⟩ := num h4 hh
        refine ⟨wi, wf, hi, hf, m5, ⟨name, m1, m3, h1, h2, t1, t2, h5, h6⟩, ?_⟩
        split at h
        · rename_i hu
          cases h
          exact ⟨a1, a2, by rw [if_pos hu], rfl⟩
        · rename_i hu
          cases h
          exact ⟨a1, a2, by rw [if_neg hu], rfl⟩
      | throws e => rw [hh] at h; cases h
      | ub => rw [hh] at h; cases h
      | hang => rw [hh] at h; cases h
    | throws e => rw [hw] at h; cases h
    | ub => rw [hw] at h; cases h
    | hang => rw [hw] at h; cases h

theorem hundredths_about {d : Rat} {unit : Bytes} {v : Rat} {x : Int} (hv : 0 ≤ v)
    (h : AboutHundredth d (lengthInInches unit v * (254 / 10))) (hd : 0 ≤ d) (hx : hundredths d = .ok x) : AboutHundredths x unit v := by
  unfold hundredths at hx
  simp only at hx
  split at hx
  · cases hx
  · cases hx
    have he : 0 ≤ lengthInInches unit v := by unfold lengthInInches; split <;> positivity
    obtain ⟨h1, h2⟩ := h
    obtain ⟨b1, b2⟩ := dbl_bounds (show (0 : Rat) ≤ d * 100 by positivity)
    have f1 : (((dbl (d * 100)).floor : Int) : Rat) ≤ dbl (d * 100) := Int.floor_le _
    have f2 : dbl (d * 100) < (((dbl (d * 100)).floor : Int) : Rat) + 1 := Int.lt_floor_add_one _
    unfold AboutHundredths
    simp only
    generalize (((dbl (d * 100)).floor : Int) : Rat) = z at *
    generalize dbl (d * 100) = y at *
    generalize lengthInInches unit v = l at *
    constructor <;> nlinarith

theorem hundredths_whole {n : Nat} (hn : n < 2 ^ 40) {x : Int} (hx : hundredths (n : Rat) = .ok x) : x = 100 * n := by
  unfold hundredths at hx
  simp only at hx
  have e : (n : Rat) * 100 = ((n * 100 : Nat) : Rat) := by push_cast; rfl
  rw [e, dbl_nat (by omega)] at hx
  have hf : (((n * 100 : Nat) : Rat)).floor = ((n * 100 : Nat) : Int) := by
    rw [← Int.cast_natCast (R := Rat)]; exact Rat.floor_intCast _
  rw [hf] at hx
  split at hx
  · cases hx
  · cases hx; push_cast; ring

theorem about_nonneg {x : Rat} {i f : Bytes} (h : IsAbout x i f) : 0 ≤ x :=
  (near_bd h.1).nonneg (decimalValue_nonneg i f) (by norm_num)

theorem roundHundredth_nonneg {d : Rat} (h : 0 ≤ d) : 0 ≤ roundHundredth d := by
  unfold roundHundredth
  apply dbl_nonneg
  apply div_nonneg _ (by norm_num)
  have : 0 ≤ roundAway (dbl (d * 100)) := by
    have h0 := dbl_nonneg (show (0 : Rat) ≤ d * 100 by positivity)
    unfold roundAway
    rw [if_pos h0]
    exact Int.floor_nonneg.mpr (show (0 : Rat) ≤ dbl (d * 100) + 1 / 2 by linarith)
  exact_mod_cast this

theorem sizeInMillimeters_nonneg {x : Rat} (unit : Bytes) (res : Nat) (h : 0 ≤ x) :
    0 ≤ sizeInMillimeters (if unit = ascii "in" then .Inches else .Millimeters) x res := by
  by_cases hu : unit = ascii "in"
  · rw [if_pos hu]; exact roundHundredth_nonneg (dbl_nonneg (mul_nonneg h mmPerIn_pos.le))
  · rw [if_neg hu]; exact h

/-- The media size for a number in the name. -/
theorem size_about {x : Rat} {i f unit : Bytes} {res : Nat} {z : Int} (hx : IsAbout x i f)
    (hz : hundredths (sizeInMillimeters (if unit = ascii "in" then .Inches else .Millimeters) x res) = .ok z) :
    AboutHundredths z unit (decimalValue i f) ∧ (unit ≠ ascii "in" → f = [] → digitsVal i < 2 ^ 40 → z = 100 * digitsVal i) := by
  have hv := decimalValue_nonneg i f
  refine ⟨hundredths_about hv (sizeInMillimeters_about hx.1 hv unit res) (sizeInMillimeters_nonneg unit res (about_nonneg hx)) hz, ?_⟩
  intro hu hf hb
  rw [if_neg hu] at hz
  have hval : decimalValue i f = digitsVal i := by rw [decimalValue_eq, hf]; simp [digitsVal]
  have hx' : x = digitsVal i := by
    rw [hx.2 ⟨by rw [hf]; simp, digitsVal i, 0, by omega, by rw [hval]; simp⟩, hval]
  have hz : hundredths x = .ok z := hz
  rw [hx'] at hz
  exact hundredths_whole hb hz

theorem startsWith_prefix (s t : Bytes) : Text.startsWith s t = true ↔ t <+: s := by
  unfold Text.startsWith
  constructor
  · intro h
    split at h
    · rw [beq_iff_eq] at h; rw [← h]; exact List.take_prefix _ _
    · cases h
  · rintro ⟨r, rfl⟩; simp

/-! ## C64 -/

/-- C64, the paper: the print parameters have the name and the size of the media asked for in the job, else of the printer's default, else
of the paper set before. -/
theorem C64_paper (pl : Pipelines) (input : Bytes) (pages : Int) (j j' : PrintJob) (h : finalize pl input pages j = .ok (none, j')) :
    ∃ name, (effective (ascii "media") j.printerAttrs j.jobAttrs).getD (.str j.paper.name) = .str name ∧ j'.paper.name = name ∧
      ∃ wi wf hi hf unit, PaperName name wi wf hi hf unit ∧ IsAbout j'.paper.w wi wf ∧ IsAbout j'.paper.h hi hf ∧
        j'.paper.units = (if unit = ascii "in" then .Inches else .Millimeters) := by
  obtain ⟨r⟩ := finalize_run h
  obtain ⟨name, hn, hp⟩ := setPaper_paper r.h3
  obtain ⟨wi, wf, hi, hf, unit, h1, h2, h3, h4, h5⟩ := setPaperSize_true hp
  obtain ⟨f, e1, _⟩ := setDocumentFormat_ok r.h1
  obtain ⟨op, e2, _⟩ := setCompression_ok r.h2
  rw [e2, e1] at hn
  rw [(frame_paper r).2.1]
  exact ⟨name, hn, h5, wi, wf, hi, hf, unit, h1, h2, h3, h4⟩

/-- C64, the margins: for images they remain with the printer. For other formats they are taken care of here: the margins asked for in the
job, else the printer's defaults, else 0, and they are not sent. -/
theorem C64_margins (pl : Pipelines) (input : Bytes) (pages : Int) (j j' : PrintJob) (h : finalize pl input pages j = .ok (none, j')) :
    (ascii "image/" <+: j'.targetFormat → j'.targetFormat ≠ pwg → j'.targetFormat ≠ urf →
      j'.margins = j.margins ∧ ∀ n ∈ marginNames, member n j'.jobAttrs = member n j.jobAttrs) ∧
    ((¬ ascii "image/" <+: j'.targetFormat) ∨ j'.targetFormat = pwg ∨ j'.targetFormat = urf →
      (∀ n ∈ marginNames, member n j'.jobAttrs = none) ∧
      (effectiveMember (ascii "media-top-margin") j.printerAttrs j.jobAttrs).getD (.int 0) = .int j'.margins.top ∧
      (effectiveMember (ascii "media-bottom-margin") j.printerAttrs j.jobAttrs).getD (.int 0) = .int j'.margins.bottom ∧
      (effectiveMember (ascii "media-left-margin") j.printerAttrs j.jobAttrs).getD (.int 0) = .int j'.margins.left ∧
      (effectiveMember (ascii "media-right-margin") j.printerAttrs j.jobAttrs).getD (.int 0) = .int j'.margins.right) := by
  obtain ⟨r⟩ := finalize_run h
  obtain ⟨s1, s2, s3, s4, _⟩ := jobAttrs_start r
  have hm : ∀ n ∈ marginNames, member n j'.jobAttrs = member n r.j4.jobAttrs := by
    intro n hn
    rw [member_congr (jobAttrs_end r (ascii "media-col") (by decide))]
    rcases addMediaSize_members r.h5 with ⟨_, e⟩ | ⟨_, _, _, _, x, y, _, _, e⟩
    · rw [e]
    · rw [e, if_neg]
      rintro rfl
      revert hn; decide
  have hi : isImage r.j3.targetFormat = true ↔ ascii "image/" <+: j'.targetFormat ∧ j'.targetFormat ≠ pwg ∧ j'.targetFormat ≠ urf := by
    rw [s3]
    unfold isImage isPrinterRaster
    rw [Bool.and_eq_true, startsWith_prefix]
    simp
  rw [(frame_paper r).2.2]
  refine ⟨fun h1 h2 h3 => ?_, fun hc => ?_⟩
  · rcases takeMargins_members r.h4 with ⟨_, e⟩ | ⟨hni, _⟩
    · refine ⟨by rw [e, s4], fun n hn => ?_⟩
      rw [hm n hn, e, s1]
    · rw [hi.mpr ⟨h1, h2, h3⟩] at hni; cases hni
  · rcases takeMargins_members r.h4 with ⟨himg, _⟩ | ⟨_, e, t1, t2, t3, t4⟩
    · obtain ⟨a, b, c⟩ := hi.mp himg
      rcases hc with hc | hc | hc
      · exact absurd a hc
      · exact absurd hc b
      · exact absurd hc c
    · rw [s1, s2] at t1 t2 t3 t4
      refine ⟨fun n hn => ?_, t1, t2, t3, t4⟩
      rw [hm n hn, e, if_pos hn]

/-- C64, media and media-col: they are never sent both (IPP does not allow it). Without media in the job the media size in media-col is
left; with it, either media is sent as it is and no media-col, or no media, and media-col has the paper's size. All
other members of media-col but the margins are sent as they are. -/
theorem C64_media (pl : Pipelines) (input : Bytes) (pages : Int) (j j' : PrintJob) (h : finalize pl input pages j = .ok (none, j')) :
    (KMap.get? j'.jobAttrs (ascii "media") = none ∨ KMap.get? j'.jobAttrs (ascii "media-col") = none) ∧
    (∀ n, n ∉ marginNames → n ≠ ascii "media-size" → member n j'.jobAttrs = member n j.jobAttrs) ∧
    (KMap.get? j.jobAttrs (ascii "media") = none →
      KMap.get? j'.jobAttrs (ascii "media") = none ∧ member (ascii "media-size") j'.jobAttrs = member (ascii "media-size") j.jobAttrs) ∧
    (KMap.get? j.jobAttrs (ascii "media") ≠ none →
      (KMap.get? j'.jobAttrs (ascii "media") = KMap.get? j.jobAttrs (ascii "media") ∧
        KMap.get? j'.jobAttrs (ascii "media-col") = none) ∨
      ∃ x y, KMap.get? j'.jobAttrs (ascii "media") = none ∧ member (ascii "media-size") j'.jobAttrs = some (mediaSize x y) ∧
        ∃ wi wf hi hf unit, PaperName j'.paper.name wi wf hi hf unit ∧
          AboutHundredths x unit (decimalValue wi wf) ∧ AboutHundredths y unit (decimalValue hi hf) ∧
          (unit ≠ ascii "in" → wf = [] → digitsVal wi < 2 ^ 40 → x = 100 * digitsVal wi) ∧
          (unit ≠ ascii "in" → hf = [] → digitsVal hi < 2 ^ 40 → y = 100 * digitsVal hi)) := by
  obtain ⟨r⟩ := finalize_run h
  obtain ⟨s1, _⟩ := jobAttrs_start r
  have endMedia : KMap.get? j'.jobAttrs (ascii "media") = KMap.get? r.j5.jobAttrs (ascii "media") := jobAttrs_end r _ (by decide)
  have endCol : KMap.get? j'.jobAttrs (ascii "media-col") = KMap.get? r.j5.jobAttrs (ascii "media-col") := jobAttrs_end r _ (by decide)
  have startMedia : KMap.get? r.j4.jobAttrs (ascii "media") = KMap.get? j.jobAttrs (ascii "media") := by
    have h4 := r.h4
    rw [← s1]
    unfold takeMargins at h4
    split at h4
    · injection h4 with h4; rw [← h4]
    · rw [Outcome.bind_eq_ok] at h4; obtain ⟨_, _, h4⟩ := h4
      rw [Outcome.bind_eq_ok] at h4; obtain ⟨_, _, h4⟩ := h4
      rw [Outcome.bind_eq_ok] at h4; obtain ⟨_, _, h4⟩ := h4
      rw [Outcome.bind_eq_ok] at h4; obtain ⟨_, _, h4⟩ := h4
      rw [Outcome.bind_eq_ok] at h4; obtain ⟨_, u1, h4⟩ := h4
      rw [Outcome.bind_eq_ok] at h4; obtain ⟨_, u2, h4⟩ := h4
      rw [Outcome.bind_eq_ok] at h4; obtain ⟨_, u3, h4⟩ := h4
      rw [Outcome.bind_eq_ok] at h4; obtain ⟨_, u4, h4⟩ := h4
      injection h4 with h4
      rw [← h4]
      exact (((unset_sub rfl u1).trans (unset_sub rfl u2)).trans ((unset_sub rfl u3).trans (unset_sub rfl u4))) _ (by decide)
  have startSize : member (ascii "media-size") r.j4.jobAttrs = member (ascii "media-size") j.jobAttrs := by
    rw [← s1]
    rcases takeMargins_members r.h4 with ⟨_, e⟩ | ⟨_, e, _⟩
    · rw [e]
    · rw [e, if_neg (by decide)]
  rw [endMedia, endCol, member_congr endCol, ← startMedia, ← startSize]
  have keep : ∀ n, n ∉ marginNames → n ≠ ascii "media-size" → member n j'.jobAttrs = member n j.jobAttrs := fun n h1 h2 => member_kept r h1 h2
  rcases addMediaSize_members r.h5 with ⟨hno, e⟩ | ⟨hcol, hmed, e1, e2, x, y, hx, hy, e3⟩
  · rw [e]
    simp only [KMap.has] at hno
    have hor : KMap.get? r.j4.jobAttrs (ascii "media") = none ∨ KMap.get? r.j4.jobAttrs (ascii "media-col") = none := by
      cases h1 : KMap.get? r.j4.jobAttrs (ascii "media") with
      | none => exact .inl rfl
      | some _ =>
        cases h2 : KMap.get? r.j4.jobAttrs (ascii "media-col") with
        | none => exact .inr rfl
        | some _ => rw [h1, h2] at hno; exact absurd ⟨rfl, rfl⟩ hno
    exact ⟨hor, keep, fun hn => ⟨hn, rfl⟩, fun hn => .inl ⟨rfl, hor.resolve_left hn⟩⟩
  · refine ⟨.inl e1, keep, fun hn => ?_, fun _ => .inr ⟨x, y, e1, by rw [e3, if_pos rfl], ?_⟩⟩
    · simp only [KMap.has] at hmed
      rw [hn] at hmed; cases hmed
    · obtain ⟨name, _, hp⟩ := setPaper_paper r.h3
      obtain ⟨wi, wf, hi, hf, unit, h1, h2, h3, h4, h5⟩ := setPaperSize_true hp
      have hpap := (frame_paper r).1
      unfold paperWInMillimeters at hx
      unfold paperHInMillimeters at hy
      rw [hpap, h4] at hx hy
      rw [(frame_paper r).2.1, h5]
      exact ⟨wi, wf, hi, hf, unit, h1, (size_about h2 hx).1, (size_about h3 hy).1, (size_about h2 hx).2, (size_about h3 hy).2⟩

/-- C64, the media size in full: to the nearest 1/100 mm. -/
def C64_size_full : Prop := ∀ (pl : Pipelines) (input : Bytes) (pages : Int) (j j' : PrintJob) (x y : Int) (wi wf hi hf unit : Bytes),
  finalize pl input pages j = .ok (none, j') → KMap.get? j.jobAttrs (ascii "media") ≠ none →
  member (ascii "media-size") j'.jobAttrs = some (mediaSize x y) → PaperName j'.paper.name wi wf hi hf unit →
    lengthInInches unit (decimalValue wi wf) * 2540 - 1 / 2 ≤ x ∧ x ≤ lengthInInches unit (decimalValue wi wf) * 2540 + 1 / 2 ∧
    lengthInInches unit (decimalValue hi hf) * 2540 - 1 / 2 ≤ y ∧ y ≤ lengthInInches unit (decimalValue hi hf) * 2540 + 1 / 2

/-- C64, the media size, is false of the code in full: the height of US Letter is 27940, and 27939 is sent. -/
theorem C64_size_false : ¬ C64_size_full := by
  intro hfull
  obtain ⟨j', hj⟩ := finalized_ok (pl := defaultPipelines) (input := pdf) (pages := 7)
    (j := settingsJob (ascii "monochrome") (ascii "tray-3")) (by decide +kernel)
  have h2 : (match finalize defaultPipelines pdf 7 (settingsJob (ascii "monochrome") (ascii "tray-3")) with
    | .ok (none, j') => decide (member (ascii "media-size") j'.jobAttrs = some (mediaSize 21590 27939) ∧
        j'.paper.name = ascii "na_letter_8.5x11in")
    | _ => false) = true := by decide +kernel
  rw [hj] at h2
  simp only [decide_eq_true_eq] at h2
  have h3 := hfull _ _ _ _ _ 21590 27939 (ascii "8") (ascii "5") (ascii "11") [] (ascii "in") hj (by decide +kernel) h2.1 (by
    rw [h2.2]
    exact ⟨ascii "na_letter", ascii "8.5", ascii "11", by decide +kernel,
      fun b hb => (isNameChar_iff b).mp (by revert b; decide +kernel),
      .frac (i := ascii "8") (f := ascii "5") ⟨by decide +kernel, by decide +kernel⟩ ⟨by decide +kernel, by decide +kernel⟩,
      .whole ⟨by decide +kernel, by decide +kernel⟩, .inr rfl, by decide +kernel⟩)
  revert h3
  decide +kernel

/-- With millimeters: A4 for the raster of a printer that has media-col, and the margins. -/
example : (match finalize defaultPipelines pdf 7 { settingsJob (ascii "monochrome") (ascii "tray-3") with
      jobAttrs := KMap.assign (settingsJob (ascii "monochrome") (ascii "tray-3")).jobAttrs (ascii "media")
        (0x44, .str (ascii "iso_a4_210x297mm")) } with
    | .ok (none, j') => decide (member (ascii "media-size") j'.jobAttrs = some (mediaSize 21000 29700) ∧ j'.margins.top = 500 ∧
        member (ascii "media-top-margin") j'.jobAttrs = none ∧ KMap.get? j'.jobAttrs (ascii "media") = none)
    | _ => false) = true := by decide +kernel

end Verif.Job
