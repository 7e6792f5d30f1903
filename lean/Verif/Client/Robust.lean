import Verif.Client.Defined
import Verif.Job.MediaProps
import Verif.Job.ResolutionProps
import Verif.Params.SeqLemmas

/-!
# Jobs are finalized without undefined behaviour: lemmas for property C101
-/

namespace Verif.Client

open Ipp Job Printer Tools

/-! ## Specification -/

/-- There are never more than `n` digits in a row. -/
def FewDigits (n : Nat) (s : Bytes) : Prop := ∀ a d b, s = a ++ d ++ b → (∀ c ∈ d, 48 ≤ c ∧ c ≤ 57) → d.length ≤ n

/-- A value with numbers of a sensible size: up to 21474836, resolutions below 2^30, in texts at most five digits in a row. -/
def Sensible : Value → Prop
  | .int i => -21474836 ≤ i ∧ i ≤ 21474836
  | .res x y _ => x.toNat < 1073741824 ∧ y.toNat < 1073741824
  | .str s => FewDigits 5 s
  | _ => True

/-- A value and, if it is a set, its members. -/
def valuesIn : Value → List Value
  | .set l => l
  | v => [v]

/-- The attributes with these names have sensible values. -/
def SensibleAt (names : List Bytes) (a : Attrs) : Prop :=
  ∀ n ∈ names, ∀ t v, (n, (t, v)) ∈ a → ∀ x ∈ valuesIn v, Sensible x

/-- The attributes of a printer whose numbers are used for arithmetic. -/
def printerNumbers : List Bytes :=
  [ascii "marker-levels", ascii "media-default", ascii "printer-resolution-default", ascii "pwg-raster-document-resolution-supported"]

/-- The attributes of a job whose numbers are used for arithmetic. -/
def jobNumbers : List Bytes := [ascii "media", ascii "printer-resolution"]

/-! ## Reading them -/

theorem sensible_assign {names : List Bytes} {a : Attrs} {n : Bytes} {x : Attr} (h : SensibleAt names a)
    (hx : n ∈ names → ∀ v ∈ valuesIn x.2, Sensible v) : SensibleAt names (KMap.assign a n x) := by
  intro m hm t v hv y hy
  rcases KMap.mem_assign hv with e | e
  · cases e
    exact hx hm y hy
  · exact h m hm t v e y hy

theorem mem_erase {α : Type} {m : KMap α} {k : Bytes} {e : Bytes × α} (h : e ∈ KMap.erase m k) : e ∈ m := (List.mem_filter.mp h).1

theorem sensible_erase {names : List Bytes} {a : Attrs} (n : Bytes) (h : SensibleAt names a) : SensibleAt names (KMap.erase a n) :=
  fun m hm t v hv y hy => h m hm t v (mem_erase hv) y hy

theorem sensible_assignAll {names : List Bytes} {l : List (Bytes × Attr)} {a : Attrs} (h : SensibleAt names a) (hl : SensibleAt names l) :
    SensibleAt names (assignAll a l) := by
  unfold assignAll
  induction l generalizing a with
  | nil => exact h
  | cons e r ih =>
    obtain ⟨k, t, v⟩ := e
    rw [List.foldl_cons]
    apply ih
    · exact sensible_assign h (fun hm => hl k hm t v (List.mem_cons_self ..))
    · exact fun n hn t v hv => hl n hn t v (List.mem_cons_of_mem _ hv)

theorem sensible_get {names : List Bytes} {a : Attrs} {n : Bytes} {t : Ty} {d v : Value} (h : SensibleAt names a) (hn : n ∈ names)
    (hd : Sensible d) (hv : Attrs.get a t n d = .ok v) (ht : t ≠ .set) : Sensible v := by
  unfold Attrs.get at hv
  split at hv
  · rename_i attr he
    obtain ⟨tag, x⟩ := attr
    unfold getAs at hv
    split at hv
    · rename_i hx
      cases hv
      have hm := KMap.mem_of_get? he
      refine h n hn tag _ hm _ ?_
      unfold valuesIn
      split
      · cases hx
        exact absurd rfl ht
      · exact List.mem_singleton.mpr rfl
    · cases hv
  · cases hv
    exact hd

theorem getAt_sensible {names : List Bytes} {a : Attrs} {n : Bytes} {t : Ty} {v : Value} (h : SensibleAt names a) (hn : n ∈ names)
    (hv : Setting.getAt t a n = .ok v) (ht : t ≠ .set) : Sensible v := by
  unfold Setting.getAt at hv
  split at hv
  · rename_i attr he
    obtain ⟨tag, x⟩ := attr
    unfold getAs at hv
    split at hv
    · rename_i hx
      cases hv
      refine h n hn tag _ (KMap.mem_of_get? he) _ ?_
      unfold valuesIn
      split
      · cases hx
        exact absurd rfl ht
      · exact List.mem_singleton.mpr rfl
    · cases hv
  · cases hv

/-- What a setting of the job itself is. -/
theorem setting_sensible {s : Setting} {pa a : Attrs} {d v : Value} (hs : s.subKey = []) (hty : s.ty ≠ .set) (hn : s.name ∈ jobNumbers)
    (hp : s.name ++ ascii "-default" ∈ printerNumbers) (ha : SensibleAt jobNumbers a) (hpa : SensibleAt printerNumbers pa) (hd : Sensible d)
    (hv : s.get pa a d = .ok v) : Sensible v := by
  unfold Setting.get at hv
  rw [Outcome.bind_eq_ok] at hv
  obtain ⟨b, -, hv⟩ := hv
  unfold Setting.getIf at hv
  split at hv
  · rw [if_neg (by rw [hs]; simp)] at hv
    exact getAt_sensible ha hn hv hty
  · exact sensible_get hpa hp hd hv hty

/-! ## Paper -/

theorem fewDigits_paper {s wi wf hi hf unit : Bytes} (hs : FewDigits 5 s) (h : PaperName s wi wf hi hf unit) : wi.length ≤ 5 ∧ hi.length ≤ 5 := by
  obtain ⟨name, w, h', -, -, hw, hh, -, rfl⟩ := h
  have dig : ∀ {d : Bytes}, (∀ c ∈ d, isDigit c = true) → ∀ c ∈ d, 48 ≤ c ∧ c ≤ 57 := by
    intro d hd c hc
    have := hd c hc
    unfold isDigit at this
    simpa using this
  constructor
  · cases hw with
    | whole h1 => exact hs (name ++ [95]) wi ([120] ++ h' ++ unit) (by simp) (dig h1.2)
    | frac h1 _ => exact hs (name ++ [95]) wi (46 :: wf ++ [120] ++ h' ++ unit) (by simp) (dig h1.2)
  · cases hh with
    | whole h1 => exact hs (name ++ [95] ++ w ++ [120]) hi unit (by simp) (dig h1.2)
    | frac h1 _ => exact hs (name ++ [95] ++ w ++ [120]) hi (46 :: hf ++ unit) (by simp) (dig h1.2)

theorem about_le {x : Rat} {i f : Bytes} (h : IsAbout x i f) (hi : ∀ c ∈ i, isDigit c = true) (hf : ∀ c ∈ f, isDigit c = true) (hl : i.length ≤ 5) : x ≤ 100001 := by
  have h1 := digitsVal_lt_pow hi
  have h2 := digitsVal_lt_pow hf
  have h3 : 10 ^ i.length ≤ 10 ^ 5 := Nat.pow_le_pow_right (by norm_num) hl
  have h4 : digitsVal i + 1 ≤ 100000 := by omega
  have h5 : (digitsVal i : Rat) + 1 ≤ 100000 := by exact_mod_cast h4
  have h6 : (digitsVal f : Rat) / (10 : Rat) ^ f.length ≤ 1 := by
    rw [div_le_one (by positivity)]
    exact_mod_cast h2.le
  have h7 := h.1.2
  rw [decimalValue_eq] at h7
  have h8 : ((digitsVal i : Rat) + (digitsVal f : Rat) / (10 : Rat) ^ f.length) / 2 ^ 50 ≤ 1 := by
    rw [div_le_one (by positivity)]
    exact le_trans (b := 100000) (by linarith) (by norm_num)
  linarith

theorem hundredths_def {d : Rat} (h0 : 0 ≤ d) (h : d ≤ 2600027) : (hundredths d).Defined := by
  have h1 : dbl (d * 100) ≤ ((260002700 : Nat) : Rat) := dbl_le (by norm_num) (by positivity) (by push_cast; linarith)
  have h2 : (dbl (d * 100)).floor ≤ 260002700 := by
    have h3 : ((dbl (d * 100)).floor : Rat) ≤ dbl (d * 100) := Int.floor_le _
    have h4 : ((dbl (d * 100)).floor : Rat) ≤ ((260002700 : Int) : Rat) := by push_cast at h1 ⊢; linarith
    exact_mod_cast h4
  unfold hundredths
  simp only
  rw [if_neg (by omega)]
  exact trivial

theorem mm_le {x : Rat} (unit : Bytes) (res : Nat) (h0 : 0 ≤ x) (h : x ≤ 100001) :
    sizeInMillimeters (if unit = ascii "in" then .Inches else .Millimeters) x res ≤ 2600027 := by
  by_cases hu : unit = ascii "in"
  · rw [if_pos hu]
    show roundHundredth (dbl (x * mmPerIn)) ≤ 2600027
    have m0 := mmPerIn_pos
    have m1 := mmPerIn_bounds.2
    have p0 : 0 ≤ x * mmPerIn := mul_nonneg h0 m0.le
    have p1 : x * mmPerIn ≤ 2600026 := by
      calc x * mmPerIn ≤ 100001 * (254 / 10) := mul_le_mul h m1 m0.le (by norm_num)
        _ ≤ 2600026 := by norm_num
    have d0 := dbl_nonneg p0
    have d1 : dbl (x * mmPerIn) ≤ ((2600026 : Nat) : Rat) := dbl_le (by norm_num) p0 (by push_cast; exact p1)
    generalize dbl (x * mmPerIn) = d at d0 d1
    have e0 : 0 ≤ d * 100 := by positivity
    have e1 : dbl (d * 100) ≤ ((260002600 : Nat) : Rat) := dbl_le (by norm_num) e0 (by push_cast at d1 ⊢; linarith)
    have e2 := dbl_nonneg e0
    have r := roundAway_near (dbl (d * 100))
    rw [abs_le] at r
    unfold roundHundredth
    generalize dbl (d * 100) = q at e1 e2 r
    have r0 : 0 ≤ roundAway q := by
      unfold roundAway
      rw [if_pos e2]
      exact Int.floor_nonneg.mpr (show (0 : Rat) ≤ q + 1 / 2 by linarith)
    have r1 : (0 : Rat) ≤ (roundAway q : Rat) := by exact_mod_cast r0
    have r2 : (roundAway q : Rat) / 100 ≤ ((2600027 : Nat) : Rat) := by push_cast at e1 ⊢; linarith [r.2]
    have := dbl_le (n := 2600027) (by norm_num) (div_nonneg r1 (by norm_num)) r2
    exact_mod_cast this
  · rw [if_neg hu]
    show x ≤ 2600027
    linarith

/-- A paper whose sizes are below 100001. -/
def PaperFits (p : Paper) : Prop :=
  (0 ≤ p.w ∧ p.w ≤ 100001) ∧ (0 ≤ p.h ∧ p.h ≤ 100001) ∧ p.units ≠ .Pixels

theorem paper_fits {p p' : Paper} {s : Bytes} (hs : FewDigits 5 s) (h : setPaperSize p s = ⟨.ok true, p'⟩) : PaperFits p' := by
  obtain ⟨wi, wf, hi, hf, unit, hn, hw, hh, hu, -⟩ := setPaperSize_true h
  obtain ⟨l1, l2⟩ := fewDigits_paper hs hn
  obtain ⟨name, w, h', -, -, tw, th, -, -⟩ := hn
  have dig : ∀ {s i f : Bytes}, DecimalText s i f → (∀ c ∈ i, isDigit c = true) ∧ (∀ c ∈ f, isDigit c = true) := by
    intro s i f h
    cases h with
    | whole h => exact ⟨h.2, by simp⟩
    | frac h1 h2 => exact ⟨h1.2, h2.2⟩
  refine ⟨⟨about_nonneg hw, about_le hw (dig tw).1 (dig tw).2 l1⟩, ⟨about_nonneg hh, about_le hh (dig th).1 (dig th).2 l2⟩, ?_⟩
  rw [hu]
  split <;> simp

theorem paper_hundredths {u : PaperUnits} {x : Rat} (res : Nat) (hu : u ≠ .Pixels) (h0 : 0 ≤ x) (h : x ≤ 100001) :
    (hundredths (sizeInMillimeters u x res)).Defined := by
  cases u with
  | Pixels => exact absurd rfl hu
  | Millimeters =>
    have h1 := mm_le [] res h0 h
    have h2 := sizeInMillimeters_nonneg [] res h0
    rw [if_neg (by decide)] at h1 h2
    exact hundredths_def h2 h1
  | Inches =>
    have h1 := mm_le (ascii "in") res h0 h
    have h2 := sizeInMillimeters_nonneg (ascii "in") res h0
    rw [if_pos rfl] at h1 h2
    exact hundredths_def h2 h1

/-! ## Resolutions -/

theorem resDiff_def {hw r : Nat × Nat} (h1 : hw.1 < 1073741824) (h2 : hw.2 < 1073741824) (h3 : r.1 < 1073741824) (h4 : r.2 < 1073741824) :
    (resDiff hw r).Defined := by
  rw [resDiff_small (by omega) (by omega) (by omega) (by omega) (by unfold Job.Spec.distance; omega)]
  exact trivial

theorem nearestPwg_def {hw : Nat × Nat} (h1 : hw.1 < 1073741824) (h2 : hw.2 < 1073741824) (l : List Value) :
    ∀ (diff : Int) (best : Nat × Nat), (∀ v ∈ l, (resOf v).1 < 1073741824 ∧ (resOf v).2 < 1073741824) → (nearestPwg hw diff best l).Defined := by
  induction l with
  | nil => intros; exact trivial
  | cons v r ih =>
    intro diff best h
    have hr := fun diff best => ih diff best (fun v hv => h v (List.mem_cons_of_mem _ hv))
    unfold nearestPwg
    split
    · exact hr _ _
    · have hv := h v (List.mem_cons_self ..)
      refine bind_def (resDiff_def h1 h2 hv.1 hv.2) (fun d => ?_)
      split <;> exact hr _ _

theorem stoi_def (s : Bytes) : (Job.stoi s).Defined := by
  unfold Job.stoi
  generalize s.dropWhile isSpace = t
  simp only
  generalize List.takeWhile isDigit _ = ds
  by_cases h : ds = []
  · rw [if_pos h]; exact trivial
  · rw [if_neg h]
    generalize (if t.head? = some 45 then -(digitsVal ds : Int) else digitsVal ds) = v
    by_cases h : v < -2147483648 ∨ 2147483647 < v
    · rw [if_pos h]; exact trivial
    · rw [if_neg h]; exact trivial

/-- Without a minus sign a number is not negative. -/
theorem stoi_bounds {s : Bytes} {i : Int} (hs : (45 : UInt8) ∉ s) (h : Job.stoi s = .ok i) : 0 ≤ i ∧ i ≤ 2147483647 := by
  unfold Job.stoi at h
  simp only at h
  have hh : (s.dropWhile isSpace).head? ≠ some 45 := by
    intro hc
    have : (45 : UInt8) ∈ s.dropWhile isSpace := List.mem_of_head? hc
    exact hs ((List.dropWhile_suffix _).mem this)
  rw [if_neg (c := _ = some 45) hh] at h
  generalize List.takeWhile isDigit _ = ds at h
  by_cases hd : ds = []
  · rw [if_pos hd] at h; cases h
  · rw [if_neg hd] at h
    split at h
    · cases h
    · cases h
      omega

theorem nearestUrf_def {hw : Nat} (hh : hw < 1073741824) (l : List Bytes) :
    ∀ (diff : Int) (best : Nat), (∀ s ∈ l, (45 : UInt8) ∉ s) → (nearestUrf hw diff best l).Defined := by
  induction l with
  | nil => intros; exact trivial
  | cons s r ih =>
    intro diff best h
    have hr := fun diff best => ih diff best (fun v hv => h v (List.mem_cons_of_mem _ hv))
    unfold nearestUrf
    refine Outcome.bind_defined (stoi_def s) (fun i hi => ?_)
    obtain ⟨i0, i1⟩ := stoi_bounds (h s (List.mem_cons_self ..)) hi
    have e : Raster.i32ToNat i < 2147483648 := by unfold Raster.i32ToNat; omega
    rw [diff32_eq (by omega) (by omega) (by omega), absInt_small (by omega)]
    simp only [Outcome.bind_ok]
    split <;> exact hr _ _

theorem urfResolution_def {hw : Nat} (hh : hw < 1073741824) (l : List Bytes) : (urfResolution hw l).Defined := by
  induction l with
  | nil => exact trivial
  | cons s r ih =>
    unfold urfResolution
    split
    · refine nearestUrf_def hh _ _ _ ?_
      intro t ht
      exact (Text.splitString_pieces _ _).1 t ht
    · exact ih

/-! ## The steps of finalize -/

theorem supportedStrs_def (s : Setting) (pa : Attrs) : (supportedStrs s pa).Defined := strList_def _ _

theorem determineTargetFormat_def (pl : Pipelines) (input : Bytes) (j : PrintJob) : (determineTargetFormat pl input j).Defined := by
  refine bind_def (getStr_def _ _ _ _) (fun _ => bind_def (isSet_def _ _) (fun _ => ?_))
  unfold betterFormat
  split
  · exact bind_def (supportedStrs_def _ _) (fun _ => trivial)
  · exact trivial

theorem setDocumentFormat_def (j : PrintJob) : (setDocumentFormat j).Defined :=
  bind_def (supportedStrs_def _ _) (fun _ => bind_def (set_def _ _ _) (fun _ => trivial))

theorem setCompression_def (j : PrintJob) : (setCompression j).Defined := by
  unfold setCompression
  split
  · refine bind_def (supportedStrs_def _ _) (fun _ => bind_def ?_ (fun _ => trivial))
    unfold chooseCompression
    split
    · exact set_def _ _ _
    · split
      · exact set_def _ _ _
      · exact trivial
  · exact trivial

theorem params_fromString_def (s : Bytes) : (Verif.fromString s).Defined := by
  have st : ∀ t, (stoul t).Defined := by
    intro t
    unfold stoul
    simp only
    generalize List.takeWhile isDigit _ = ds
    by_cases h : ds = []
    · rw [if_pos h]; exact trivial
    · rw [if_neg h]
      by_cases h : digitsVal ds > sizeMax
      · rw [if_pos h]; exact trivial
      · rw [if_neg h]; exact trivial
  refine bind_def (st _) (fun _ => ?_)
  split
  · exact trivial
  · exact bind_def (st _) (fun _ => trivial)

theorem setPaperSize_def (p : Paper) (s : Bytes) : (setPaperSize p s).ret.Defined := by
  have f := params_fromString_def
  unfold setPaperSize
  split
  · rename_i m1 m3 m5 _
    have f1 := f m1
    have f3 := f m3
    revert f1 f3
    cases Verif.fromString m1 <;> cases Verif.fromString m3 <;> intro f1 f3
    all_goals first | exact trivial | exact f1 | exact f3 | skip
    simp only
    split <;> exact trivial
  · exact trivial

theorem setPaper_def (j : PrintJob) : (setPaper j).Defined :=
  bind_def (getStr_def _ _ _ _) (fun _ => bind_def (setPaperSize_def _ _) (fun _ => trivial))

theorem takeMargins_def (j : PrintJob) : (takeMargins j).Defined := by
  unfold takeMargins
  split
  · exact trivial
  · exact bind_def (getInt_def _ _ _ _) (fun _ => bind_def (getInt_def _ _ _ _) (fun _ => bind_def (getInt_def _ _ _ _) (fun _ =>
      bind_def (getInt_def _ _ _ _) (fun _ => bind_def (unset_def _ _) (fun _ => bind_def (unset_def _ _) (fun _ =>
      bind_def (unset_def _ _) (fun _ => bind_def (unset_def _ _) (fun _ => trivial))))))))

theorem addMediaSize_def {j : PrintJob} (h : PaperFits j.paper) : (addMediaSize j).Defined := by
  obtain ⟨⟨w0, w1⟩, ⟨h0, h1⟩, hu⟩ := h
  refine bind_def (isSet_def _ _) (fun _ => ?_)
  split
  · exact bind_def (paper_hundredths _ hu w0 w1) (fun _ => bind_def (paper_hundredths _ hu h0 h1) (fun _ =>
      bind_def (subCollection_def _ _) (fun _ => bind_def (unset_def _ _) (fun _ => trivial))))
  · exact trivial

theorem takeResolution_def (j : PrintJob) : (takeResolution j).Defined := bind_def (setting_get_def _ _ _ _) (fun _ => trivial)

theorem takeRanges_def (input : Bytes) (j : PrintJob) : (takeRanges input j).Defined := by
  unfold takeRanges
  split
  · exact bind_def (getList_def _ _ _) (fun _ => bind_def (unset_def _ _) (fun _ => trivial))
  · exact trivial

theorem getAll_mem {t : Ty} {l l' : List Value} (h : getAll t l = .ok l') : l' = l := by
  induction l generalizing l' with
  | nil => cases h; rfl
  | cons v r ih =>
    unfold getAll at h
    rw [Outcome.bind_eq_ok] at h; obtain ⟨x, hx, h⟩ := h
    rw [Outcome.bind_eq_ok] at h; obtain ⟨xs, hxs, h⟩ := h
    cases h
    unfold getAs at hx
    split at hx
    · cases hx; rw [ih hxs]
    · cases hx

/-- The members of a list are sensible. -/
theorem getList_sensible {names : List Bytes} {a : Attrs} {n : Bytes} {t : Ty} {l : List Value} (h : SensibleAt names a) (hn : n ∈ names)
    (hl : Attrs.getList a t n = .ok l) : ∀ v ∈ l, Sensible v := by
  unfold Attrs.getList at hl
  split at hl
  · rename_i attr he
    obtain ⟨tag, x⟩ := attr
    rw [getAll_mem hl]
    exact h n hn tag x (KMap.mem_of_get? he)
  · cases hl; simp

theorem sensible_res {v : Value} (h : Sensible v) : (resOf v).1 < 1073741824 ∧ (resOf v).2 < 1073741824 := by
  unfold resOf
  split
  · exact h
  · decide

theorem adjustResolution_def {j : PrintJob} (hp : SensibleAt printerNumbers j.printerAttrs) (hw : j.params.hwResW < 1073741824)
    (hh : j.params.hwResH < 1073741824) : (adjustResolution j).Defined := by
  unfold adjustResolution
  split
  · refine Outcome.bind_defined (getList_def _ _ _) (fun l hl => bind_def (nearestPwg_def hw hh l _ _ ?_) (fun _ => trivial))
    intro v hv
    exact sensible_res (getList_sensible hp (by simp [printerNumbers]) hl v hv)
  · exact bind_def (strList_def _ _) (fun _ => bind_def (urfResolution_def (by omega) _) (fun _ => trivial))

theorem adjustBack_def (j : PrintJob) : (adjustBack j).Defined := by
  unfold adjustBack
  split
  · exact bind_def (attrs_get_def _ _ _ _) (fun _ => trivial)
  · exact bind_def (strList_def _ _) (fun _ => trivial)

theorem pageSequence_def (p : Params) (n : Nat) : (p.pageSequence n).Defined := by
  unfold Params.pageSequence
  simp only
  generalize selectedPages _ _ = seq
  by_cases hc : p.copies > 1
  · rw [if_pos hc]
    by_cases hcol : p.collatedCopies = true
    · rw [if_pos hcol]; exact trivial
    · rw [if_neg hcol]
      by_cases ht : p.isTwoSided = true
      · rw [if_pos ht, uncollatedSheets_eq]
        · exact trivial
        · by_cases ho : seq.length % 2 = 1
          · rw [if_pos ⟨ht, ho⟩]; simp; omega
          · rw [if_neg (fun h => ho h.2)]; omega
      · rw [if_neg ht]; exact trivial
  · rw [if_neg hc]; exact trivial

theorem adjustCopies_def (pages : Int) (j : PrintJob) : (adjustCopies pages j).Defined := by
  refine bind_def (getInt_def _ _ _ _) (fun _ => bind_def ?_ (fun _ => ?_))
  · exact bind_def (attrs_get_def _ _ _ _) (fun _ => bind_def (strList_def _ _) (fun _ => trivial))
  · split
    · refine bind_def (getStr_def _ _ _ _) (fun _ => bind_def (unset_def _ _) (fun _ => bind_def (getStr_def _ _ _ _) (fun _ => ?_)))
      unfold dropDuplex
      split
      · exact trivial
      · refine bind_def (pageSequence_def _ _) (fun _ => ?_)
        split
        · exact bind_def (set_def _ _ _) (fun _ => trivial)
        · exact trivial
    · exact trivial

theorem adjustRaster_def {pages : Int} {j : PrintJob} (hp : SensibleAt printerNumbers j.printerAttrs) (hw : j.params.hwResW < 1073741824)
    (hh : j.params.hwResH < 1073741824) : (adjustRaster pages j).Defined := by
  unfold adjustRaster
  split
  · exact bind_def (unset_def _ _) (fun _ => bind_def (adjustResolution_def hp hw hh) (fun _ => bind_def (adjustBack_def _) (fun _ => adjustCopies_def _ _)))
  · exact trivial

theorem takeMedia_def (j : PrintJob) : (takeMedia j).Defined := by
  refine bind_def (isSet_def _ _) (fun _ => bind_def ?_ (fun _ => bind_def (getStr_def _ _ _ _) (fun _ => trivial)))
  unfold newPosition
  split
  · refine bind_def (getStr_def _ _ _ _) (fun _ => ?_)
    unfold mediaPosition
    split <;> exact trivial
  · exact trivial

theorem sensible_unset {names : List Bytes} {s : Setting} {a a' : Attrs} (h : SensibleAt names a) (hs : s.subKey ∉ names)
    (hu : s.unset a = .ok a') : SensibleAt names a' := by
  unfold Setting.unset at hu
  split at hu
  · rw [Outcome.bind_eq_ok] at hu
    obtain ⟨col, -, hu⟩ := hu
    cases hu
    unfold Setting.putBack
    split
    · exact sensible_erase _ h
    · exact sensible_assign h (fun hm => absurd hm hs)
  · cases hu
    exact sensible_erase _ h

theorem media_col_not : ascii "media-col" ∉ jobNumbers := by decide +kernel

/-- What the steps before `adjustRaster` leave alone. -/
structure SameBut (j j' : PrintJob) : Prop where
  printer : j'.printerAttrs = j.printerAttrs
  paper : j'.paper = j.paper
  sensible : SensibleAt jobNumbers j.jobAttrs → SensibleAt jobNumbers j'.jobAttrs
  resW : j'.params.hwResW = j.params.hwResW
  resH : j'.params.hwResH = j.params.hwResH

theorem takeMargins_same {j j' : PrintJob} (h : takeMargins j = .ok j') : SameBut j j' := by
  unfold takeMargins at h
  split at h
  · cases h; exact ⟨rfl, rfl, id, rfl, rfl⟩
  · simp only [Outcome.bind_eq_ok] at h
    obtain ⟨_, -, _, -, _, -, _, -, a1, h1, a2, h2, a3, h3, a4, h4, h⟩ := h
    cases h
    exact ⟨rfl, rfl, fun h => sensible_unset (sensible_unset (sensible_unset (sensible_unset h media_col_not h1) media_col_not h2) media_col_not h3) media_col_not h4, rfl, rfl⟩

theorem addMediaSize_same {j j' : PrintJob} (h : addMediaSize j = .ok j') : SameBut j j' := by
  unfold addMediaSize at h
  rw [Outcome.bind_eq_ok] at h
  obtain ⟨b, -, h⟩ := h
  split at h
  · simp only [Outcome.bind_eq_ok] at h
    obtain ⟨_, -, _, -, _, -, a, ha, h⟩ := h
    cases h
    refine ⟨rfl, rfl, fun h => sensible_unset (sensible_assign h (fun hm => absurd hm media_col_not)) ?_ ha, rfl, rfl⟩
    decide +kernel
  · cases h; exact ⟨rfl, rfl, id, rfl, rfl⟩

theorem takeResolution_small {j j' : PrintJob} (ha : SensibleAt jobNumbers j.jobAttrs) (hp : SensibleAt printerNumbers j.printerAttrs)
    (hw : j.params.hwResW < 1073741824) (hh : j.params.hwResH < 1073741824) (h : takeResolution j = .ok j') :
    j'.params.hwResW < 1073741824 ∧ j'.params.hwResH < 1073741824 ∧ j'.printerAttrs = j.printerAttrs := by
  unfold takeResolution at h
  rw [Outcome.bind_eq_ok] at h
  obtain ⟨v, hv, h⟩ := h
  cases h
  have hs := setting_sensible (s := sResolution) rfl (by decide) (by decide +kernel) (by decide +kernel) ha hp ?_ hv
  · exact ⟨(sensible_res hs).1, (sensible_res hs).2, rfl⟩
  · show _ ∧ _
    rw [UInt32.toNat_ofNat', UInt32.toNat_ofNat']
    constructor <;> omega

theorem takeRanges_same {input : Bytes} {j j' : PrintJob} (h : takeRanges input j = .ok j') :
    j'.printerAttrs = j.printerAttrs ∧ j'.params.hwResW = j.params.hwResW ∧ j'.params.hwResH = j.params.hwResH := by
  unfold takeRanges at h
  split at h
  · simp only [Outcome.bind_eq_ok] at h
    obtain ⟨_, -, _, -, h⟩ := h
    cases h
    exact ⟨rfl, rfl, rfl⟩
  · cases h; exact ⟨rfl, rfl, rfl⟩

/-- A job whose numbers are of a sensible size. -/
structure SensibleJob (j : PrintJob) : Prop where
  job : SensibleAt jobNumbers j.jobAttrs
  printer : SensibleAt printerNumbers j.printerAttrs
  paper : FewDigits 5 j.paper.name
  resW : j.params.hwResW < 1073741824
  resH : j.params.hwResH < 1073741824

theorem finalizeSteps_def {input : Bytes} {pages : Int} {j : PrintJob} (h : SensibleJob j) (hp : PaperFits j.paper) : (finalizeSteps input pages j).Defined := by
  refine Outcome.bind_defined (takeMargins_def j) (fun j1 h1 => ?_)
  have s1 := takeMargins_same h1
  refine Outcome.bind_defined (addMediaSize_def (by rw [s1.paper]; exact hp)) (fun j2 h2 => ?_)
  have s2 := addMediaSize_same h2
  refine Outcome.bind_defined (takeResolution_def _) (fun j3 h3 => ?_)
  obtain ⟨r1, r2, r3⟩ := takeResolution_small (j := setFormat input j2) (s2.sensible (s1.sensible h.job))
    (by show SensibleAt _ j2.printerAttrs; rw [s2.printer, s1.printer]; exact h.printer)
    (by show j2.params.hwResW < _; rw [s2.resW, s1.resW]; exact h.resW) (by show j2.params.hwResH < _; rw [s2.resH, s1.resH]; exact h.resH) h3
  refine Outcome.bind_defined (takeRanges_def _ _) (fun j4 h4 => ?_)
  obtain ⟨t1, t2, t3⟩ := takeRanges_same h4
  have e : j4.printerAttrs = j.printerAttrs := by
    rw [t1, r3]; show j2.printerAttrs = _; rw [s2.printer, s1.printer]
  refine bind_def (adjustRaster_def (by rw [e]; exact h.printer) (by omega) (by omega)) (fun _ => ?_)
  exact bind_def (bind_def (getStr_def _ _ _ _) (fun _ => trivial)) (fun _ => bind_def (bind_def (getInt_def _ _ _ _) (fun _ => trivial)) (fun _ =>
    bind_def (bind_def (supportedStrs_def _ _) (fun _ => bind_def (getStr_def _ _ _ _) (fun _ => trivial))) (fun _ => takeMedia_def _)))

theorem finalizePaper_def {input : Bytes} {pages : Int} {j : PrintJob} (h : SensibleJob j) : (finalizePaper input pages j).Defined := by
  refine Outcome.bind_defined (setPaper_def j) (fun r hr => ?_)
  obtain ⟨ok, j'⟩ := r
  simp only
  split
  · rename_i hok
    rw [hok] at hr
    obtain ⟨name, hn, hs⟩ := setPaper_paper hr
    have hj : j'.printerAttrs = j.printerAttrs ∧ j'.jobAttrs = j.jobAttrs ∧ j'.params.hwResW = j.params.hwResW ∧
        j'.params.hwResH = j.params.hwResH ∧ ∃ n, getStr sMedia j.printerAttrs j.jobAttrs j.paper.name = .ok n ∧ setPaperSize j.paper n = ⟨.ok true, j'.paper⟩ := by
      unfold setPaper at hr
      rw [Outcome.bind_eq_ok] at hr; obtain ⟨n, hn, hr⟩ := hr
      rw [Outcome.bind_eq_ok] at hr; obtain ⟨b, hb, hr⟩ := hr
      cases hr
      refine ⟨rfl, rfl, rfl, rfl, n, hn, ?_⟩
      rw [← hb]
    obtain ⟨e1, e2, e3, e4, n, hn, hsz⟩ := hj
    have few : FewDigits 5 n := by
      unfold getStr at hn
      rw [Outcome.bind_eq_ok] at hn
      obtain ⟨v, hv, hn⟩ := hn
      cases hn
      have := setting_sensible (s := sMedia) rfl (by decide) (by decide +kernel) (by decide +kernel) h.job h.printer (show Sensible (.str _) from h.paper) hv
      unfold strOf
      split
      · exact this
      · intro a d b hd _
        have := congrArg List.length hd
        simp at this
        omega
    obtain ⟨_, _, _, _, _, _, _, _, _, hname⟩ := setPaperSize_true hsz
    refine bind_def (finalizeSteps_def ⟨by rw [e2]; exact h.job, by rw [e1]; exact h.printer, by rw [hname]; exact few, by rw [e3]; exact h.resW, by rw [e4]; exact h.resH⟩ (paper_fits few hsz)) (fun _ => trivial)
  · exact trivial

theorem setDocumentFormat_same {j j' : PrintJob} (h : setDocumentFormat j = .ok j') (hs : SensibleJob j) : SensibleJob j' := by
  unfold setDocumentFormat at h
  simp only [Outcome.bind_eq_ok] at h
  obtain ⟨_, -, _, -, h⟩ := h
  cases h
  exact ⟨hs.job, hs.printer, hs.paper, hs.resW, hs.resH⟩

theorem setCompression_same {j j' : PrintJob} (h : setCompression j = .ok j') (hs : SensibleJob j) : SensibleJob j' := by
  unfold setCompression at h
  split at h
  · simp only [Outcome.bind_eq_ok] at h
    obtain ⟨_, -, _, -, h⟩ := h
    cases h
    exact ⟨hs.job, hs.printer, hs.paper, hs.resW, hs.resH⟩
  · cases h; exact hs

/-- `finalize` does nothing undefined to a job whose numbers are of a sensible size. -/
theorem finalize_def {pl : Pipelines} {input : Bytes} {pages : Int} {j : PrintJob} (h : SensibleJob j) : (finalize pl input pages j).Defined := by
  refine bind_def (determineTargetFormat_def _ _ _) (fun t => Outcome.bind_defined (setDocumentFormat_def _) (fun j1 h1 => ?_))
  have s1 := setDocumentFormat_same h1 ⟨h.job, h.printer, h.paper, h.resW, h.resH⟩
  split
  · exact trivial
  · exact Outcome.bind_defined (setCompression_def _) (fun j2 h2 => finalizePaper_def (setCompression_same h2 s1))

end Verif.Client
