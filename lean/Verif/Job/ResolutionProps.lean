import Verif.Job.DuplexProps
import Verif.Text.Props

/-!
# Property C33: the resolution of raster output
-/

namespace Verif.Job

open Ipp Spec

/-! ## Specification -/

namespace Spec

/-- The distance of two resolutions. -/
def distance (a b : Nat × Nat) : Nat := ((a.1 : Int) - b.1).natAbs + ((a.2 : Int) - b.2).natAbs

/-- The resolutions in dpi that a printer lists for PWG raster. -/
def ListedPwg (pa : Attrs) (r : Nat × Nat) : Prop :=
  ∃ x y, .res x y 3 ∈ values (KMap.get? pa (ascii "pwg-raster-document-resolution-supported")) ∧ r = (x.toNat, y.toNat)

/-- `used` is the resolution to use when `req` is asked for and those with `listed` are available: one of them to which none is nearer to the
request; or the request when there are none. -/
def Nearest {α : Type} (dist : α → α → Nat) (listed : α → Prop) (req used : α) : Prop :=
  (listed used ∧ ∀ r, listed r → dist req used ≤ dist req r) ∨ ((∀ r, ¬ listed r) ∧ used = req)

/-- The resolution that is asked for, in the unit `units` (3: dpi, 4: dots per centimetre). -/
def Requested (j : PrintJob) (rx ry : Nat) (units : UInt8) : Prop :=
  ∃ x y, (effective (ascii "printer-resolution") j.printerAttrs j.jobAttrs).getD
      (.res (.ofNat j.params.hwResW) (.ofNat j.params.hwResH) 3) = .res x y units ∧ rx = x.toNat ∧ ry = y.toNat

/-- An entry of urf-supported that lists the resolutions `ns`: RS, and the numbers separated by dashes. -/
def RsEntry (s : Bytes) (ns : List Nat) : Prop := ns ≠ [] ∧ s = ascii "RS" ++ [45].intercalate (ns.map dec)

end Spec

/-! ## Differences of 32-bit numbers -/

theorem diff32_eq {a b : Nat} (ha : a < 2 ^ 32) (hb : b < 2 ^ 32) (h : ((a : Int) - b).natAbs < 2 ^ 31) : diff32 a b = (a : Int) - b := by
  unfold diff32 Raster.natToI32
  split <;> omega

theorem absInt_ok {i r : Int} (h : absInt i = .ok r) : r = i.natAbs := by
  unfold absInt at h; split at h
  · cases h
  · cases h; rfl

theorem absInt_small {i : Int} (h : i.natAbs < 2 ^ 31) : absInt i = .ok i.natAbs := by
  unfold absInt; rw [if_neg (by omega)]

theorem resDiff_ok {hw r : Nat × Nat} {d : Int} (h1 : hw.1 < 2 ^ 32) (h2 : hw.2 < 2 ^ 32) (h3 : r.1 < 2 ^ 32) (h4 : r.2 < 2 ^ 32)
    (hx : ((hw.1 : Int) - r.1).natAbs < 2 ^ 31) (hy : ((hw.2 : Int) - r.2).natAbs < 2 ^ 31) (h : resDiff hw r = .ok d) :
    d = distance hw r ∧ d < 2 ^ 31 := by
  unfold resDiff at h
  rw [Outcome.bind_eq_ok] at h; obtain ⟨dx, hdx, h⟩ := h
  rw [Outcome.bind_eq_ok] at h; obtain ⟨dy, hdy, h⟩ := h
  rw [diff32_eq h1 h3 hx] at hdx
  rw [diff32_eq h2 h4 hy] at hdy
  have := absInt_ok hdx
  have := absInt_ok hdy
  unfold addInt at h
  split at h
  · cases h
  · cases h
    unfold distance
    omega

theorem resDiff_small {hw r : Nat × Nat} (h1 : hw.1 < 2 ^ 32) (h2 : hw.2 < 2 ^ 32) (h3 : r.1 < 2 ^ 32) (h4 : r.2 < 2 ^ 32)
    (hd : distance hw r < 2 ^ 31) : resDiff hw r = .ok (distance hw r : Int) := by
  unfold distance at hd
  unfold resDiff
  rw [diff32_eq h1 h3 (by omega), diff32_eq h2 h4 (by omega), absInt_small (by omega), absInt_small (by omega)]
  simp only [Outcome.bind_ok, addInt]
  rw [if_neg (by omega)]
  unfold distance
  simp

/-! ## PWG -/

theorem res_lt (v : Value) : (resOf v).1 < 2 ^ 32 ∧ (resOf v).2 < 2 ^ 32 := by
  cases v <;> simp [resOf]
  exact ⟨UInt32.toNat_lt _, UInt32.toNat_lt _⟩

theorem nearestPwg_spec {hw : Nat × Nat} (h1 : hw.1 < 2 ^ 32) (h2 : hw.2 < 2 ^ 32) (l : List Value) (diff : Int) (best r : Nat × Nat)
    (hsmall : ∀ v ∈ l, unitsOf v = 3 → ((hw.1 : Int) - (resOf v).1).natAbs < 2 ^ 31 ∧ ((hw.2 : Int) - (resOf v).2).natAbs < 2 ^ 31)
    (h : nearestPwg hw diff best l = .ok r) :
    (r = best ∧ ∀ v ∈ l, unitsOf v = 3 → diff ≤ distance hw (resOf v)) ∨
    ((∃ v ∈ l, unitsOf v = 3 ∧ r = resOf v) ∧ (distance hw r : Int) < diff ∧
      ∀ v ∈ l, unitsOf v = 3 → distance hw r ≤ distance hw (resOf v)) := by
  induction l generalizing diff best with
  | nil => cases h; left; simp
  | cons v l ih =>
    have hs' : ∀ v ∈ l, unitsOf v = 3 → _ := fun w hw => hsmall w (List.mem_cons_of_mem _ hw)
    rw [nearestPwg] at h
    split at h
    · rename_i hu
      rcases ih diff best hs' h with ⟨e, ha⟩ | ⟨⟨w, hw1, hw2⟩, hb, hc⟩
      · refine .inl ⟨e, fun w hw hw3 => ?_⟩
        rcases List.mem_cons.mp hw with rfl | hw
        · exact absurd hw3 hu
        · exact ha w hw hw3
      · refine .inr ⟨⟨w, List.mem_cons_of_mem _ hw1, hw2⟩, hb, fun w hw hw3 => ?_⟩
        rcases List.mem_cons.mp hw with rfl | hw
        · exact absurd hw3 hu
        · exact hc w hw hw3
    · rename_i hu
      have hu : unitsOf v = 3 := by simpa using hu
      rw [Outcome.bind_eq_ok] at h
      obtain ⟨d, hd, h⟩ := h
      obtain ⟨sx, sy⟩ := hsmall v (List.mem_cons_self ..) hu
      obtain ⟨rfl, _⟩ := resDiff_ok h1 h2 (res_lt v).1 (res_lt v).2 sx sy hd
      split at h
      · rename_i hlt
        right
        rcases ih _ _ hs' h with ⟨rfl, ha⟩ | ⟨⟨w, hw1, hw2⟩, hb, hc⟩
        · refine ⟨⟨v, List.mem_cons_self .., hu, rfl⟩, hlt, fun w hw hw3 => ?_⟩
          rcases List.mem_cons.mp hw with rfl | hw
          · exact Nat.le_refl _
          · have := ha w hw hw3; omega
        · refine ⟨⟨w, List.mem_cons_of_mem _ hw1, hw2⟩, by omega, fun w hw hw3 => ?_⟩
          rcases List.mem_cons.mp hw with rfl | hw
          · omega
          · exact hc w hw hw3
      · rename_i hnl
        rcases ih _ _ hs' h with ⟨rfl, ha⟩ | ⟨⟨w, hw1, hw2⟩, hb, hc⟩
        · refine .inl ⟨rfl, fun w hw hw3 => ?_⟩
          rcases List.mem_cons.mp hw with rfl | hw
          · omega
          · exact ha w hw hw3
        · refine .inr ⟨⟨w, List.mem_cons_of_mem _ hw1, hw2⟩, hb, fun w hw hw3 => ?_⟩
          rcases List.mem_cons.mp hw with rfl | hw
          · omega
          · exact hc w hw hw3

theorem nearestPwg_defined {hw : Nat × Nat} (h1 : hw.1 < 2 ^ 32) (h2 : hw.2 < 2 ^ 32) (l : List Value) (diff : Int) (best : Nat × Nat)
    (hsmall : ∀ v ∈ l, unitsOf v = 3 → distance hw (resOf v) < 2 ^ 31) : ∃ r, nearestPwg hw diff best l = .ok r := by
  induction l generalizing diff best with
  | nil => exact ⟨_, rfl⟩
  | cons v l ih =>
    have hs' : ∀ v ∈ l, unitsOf v = 3 → _ := fun w hw => hsmall w (List.mem_cons_of_mem _ hw)
    rw [nearestPwg]
    split
    · exact ih _ _ hs'
    · rename_i hu
      rw [resDiff_small h1 h2 (res_lt v).1 (res_lt v).2 (hsmall v (List.mem_cons_self ..) (by simpa using hu)), Outcome.bind_ok]
      split
      · exact ih _ _ hs'
      · exact ih _ _ hs'

/-- The request as the code reads it. -/
theorem requested_eq {pl : Pipelines} {input : Bytes} {pages : Int} {j j' : PrintJob} (r : Run pl input pages j j') {rx ry : Nat}
    {u : UInt8} (h : Requested j rx ry u) : r.j7.params.hwResW = rx ∧ r.j7.params.hwResH = ry ∧ rx < 2 ^ 32 ∧ ry < 2 ^ 32 := by
  obtain ⟨v, hv, hw, hh⟩ := (before_raster r).resolution
  obtain ⟨x, y, he, rfl, rfl⟩ := h
  have : v = .res x y u := by
    rw [← he]
    rw [get_top rfl] at hv
    unfold effective
    have e : sResolution.name = ascii "printer-resolution" := rfl
    rw [e] at hv
    cases hg : KMap.get? j.jobAttrs (ascii "printer-resolution") with
    | some a => rw [hg] at hv; exact (getAs_ok hv).1
    | none =>
      rw [hg] at hv
      simp only [Attrs.get] at hv
      cases hd : KMap.get? j.printerAttrs (ascii "printer-resolution" ++ ascii "-default") with
      | some a => rw [hd] at hv; exact (getAs_ok hv).1
      | none => rw [hd] at hv; cases hv; rfl
  subst this
  exact ⟨hw, hh, UInt32.toNat_lt _, UInt32.toNat_lt _⟩

theorem listedPwg_iff {pa : Attrs} {l : List Value}
    (h : Attrs.getList pa .res (ascii "pwg-raster-document-resolution-supported") = .ok l) (r : Nat × Nat) :
    ListedPwg pa r ↔ ∃ v ∈ l, unitsOf v = 3 ∧ r = resOf v := by
  obtain ⟨rfl, hty⟩ := getList_values h
  unfold ListedPwg
  constructor
  · rintro ⟨x, y, hm, rfl⟩; exact ⟨_, hm, rfl, rfl⟩
  · rintro ⟨v, hm, hu, rfl⟩
    have := hty v hm
    cases v <;> simp [Value.ty] at this
    rename_i x y u
    have hu : u = 3 := hu
    subst hu
    exact ⟨x, y, hm, rfl⟩

/-- The full C33 for PWG: the resolution is the nearest one, whatever is listed, and is found without undefined behaviour. -/
def C33_pwg_full : Prop :=
  ∀ (pl : Pipelines) (input : Bytes) (pages : Int) (j : PrintJob) (rx ry : Nat), Requested j rx ry 3 →
    finalize pl input pages j ≠ .ub ∧ ∀ j', finalize pl input pages j = .ok (none, j') → j'.params.format = .PWG →
      Nearest distance (ListedPwg j.printerAttrs) (rx, ry) (j'.params.hwResW, j'.params.hwResH)

/-- C33 for PWG: the resolution used is a listed one, in dpi, and none of the listed ones is nearer to the numbers of the request (whatever its unit, `u`), and
if none is listed it is these numbers; provided that no listed number differs from the request by 2^31 or more.
Missing to the full C33: such numbers (`C33_resolution_pwg_false`), and that requests in another unit than dpi are converted (`C33_resolution_dpcm_false`). -/
theorem C33_resolution_pwg_partial (pl : Pipelines) (input : Bytes) (pages : Int) (j j' : PrintJob)
    (h : finalize pl input pages j = .ok (none, j')) (hf : j'.params.format = .PWG) (rx ry : Nat) (u : UInt8) (hreq : Requested j rx ry u)
    (hsmall : ∀ r, ListedPwg j.printerAttrs r → ((rx : Int) - r.1).natAbs < 2 ^ 31 ∧ ((ry : Int) - r.2).natAbs < 2 ^ 31) :
    Nearest distance (ListedPwg j.printerAttrs) (rx, ry) (j'.params.hwResW, j'.params.hwResH) := by
  obtain ⟨r⟩ := finalize_run h
  obtain ⟨e1, e2, e3⟩ := format_raster r
  have ha := after_frame r
  obtain ⟨rw7, rh7, hx32, hy32⟩ := requested_eq r hreq
  rw [hf] at e1
  rcases adjustRaster_ok r.h8 with ⟨hnr, _⟩ | ⟨_, w, hh, b, hres, _, hc⟩
  · exact absurd (.inl e1) hnr
  · obtain ⟨_, hw8, hh8⟩ := adjustCopies_params hc
    have hw' : j'.params.hwResW = w := by rw [ha.hwResW, hw8]; rfl
    have hh' : j'.params.hwResH = hh := by rw [ha.hwResH, hh8]; rfl
    rw [hw', hh']
    unfold adjustResolution at hres
    have hp : (withRaster r.j7 r.j7.params.hwResW r.j7.params.hwResH r.j7.params.backXformMode).params.format = .PWG := e1
    rw [if_pos hp, Outcome.bind_eq_ok] at hres
    obtain ⟨l, hl, hres⟩ := hres
    rw [Outcome.bind_eq_ok] at hres
    obtain ⟨q, hq, hres⟩ := hres
    have hl : Attrs.getList j.printerAttrs .res (ascii "pwg-raster-document-resolution-supported") = .ok l := by rw [← hl, ← e3]; rfl
    have hq : nearestPwg (rx, ry) 4294967295 (rx, ry) l = .ok q := by rw [← hq, ← rw7, ← rh7]; rfl
    have hqe : q = (w, hh) := by
      injection hres with hres
      have a1 := congrArg (fun x => x.params.hwResW) hres
      have a2 := congrArg (fun x => x.params.hwResH) hres
      exact Prod.ext a1 a2
    subst hqe
    have hlist := listedPwg_iff hl
    have hsm : ∀ v ∈ l, unitsOf v = 3 → ((rx : Int) - (resOf v).1).natAbs < 2 ^ 31 ∧ ((ry : Int) - (resOf v).2).natAbs < 2 ^ 31 :=
      fun v hv hu => hsmall _ ((hlist _).mpr ⟨v, hv, hu, rfl⟩)
    rcases nearestPwg_spec (hw := (rx, ry)) hx32 hy32 l _ _ _ hsm hq with ⟨e, hno⟩ | ⟨hin, _, hmin⟩
    · right
      refine ⟨fun x hx => ?_, e⟩
      obtain ⟨v, hv, hu, rfl⟩ := (hlist x).mp hx
      have h1 := hno v hv hu
      have h2 := hsm v hv hu
      unfold distance at h1
      simp only at h1
      omega
    · left
      refine ⟨(hlist _).mpr hin, fun x hx => ?_⟩
      obtain ⟨v, hv, hu, rfl⟩ := (hlist x).mp hx
      exact hmin v hv hu

/-- C33 for PWG: with distances below 2^31 the search for the resolution has no undefined behaviour. -/
theorem C33_resolution_pwg_defined (j : PrintJob) (hf : j.params.format = .PWG) (h1 : j.params.hwResW < 2 ^ 32)
    (h2 : j.params.hwResH < 2 ^ 32)
    (hsmall : ∀ r, ListedPwg j.printerAttrs r → distance (j.params.hwResW, j.params.hwResH) r < 2 ^ 31) :
    (∃ j', adjustResolution j = .ok j') ∨ adjustResolution j = .throws .badVariant := by
  unfold adjustResolution
  rw [if_pos hf]
  by_cases hty : ∀ v ∈ values (KMap.get? j.printerAttrs (ascii "pwg-raster-document-resolution-supported")), v.ty = some .res
  · left
    have hl : Attrs.getList j.printerAttrs .res (ascii "pwg-raster-document-resolution-supported") =
        .ok (values (KMap.get? j.printerAttrs (ascii "pwg-raster-document-resolution-supported"))) := by
      unfold Attrs.getList
      cases hg : KMap.get? j.printerAttrs (ascii "pwg-raster-document-resolution-supported") with
      | none => rfl
      | some x =>
        rw [hg] at hty
        obtain ⟨tag, v⟩ := x
        have : asList v = values (some (tag, v)) := by cases v <;> rfl
        rw [← this] at hty ⊢
        exact getAll_ok hty
    rw [hl, Outcome.bind_ok]
    have hlist := listedPwg_iff hl
    obtain ⟨r, hr⟩ := nearestPwg_defined (hw := (j.params.hwResW, j.params.hwResH)) h1 h2
      (values (KMap.get? j.printerAttrs (ascii "pwg-raster-document-resolution-supported"))) 4294967295
      (j.params.hwResW, j.params.hwResH) (fun v hv hu => hsmall _ ((hlist _).mpr ⟨v, hv, hu, rfl⟩))
    rw [hr]
    exact ⟨_, rfl⟩
  · right
    have hbad : Attrs.getList j.printerAttrs .res (ascii "pwg-raster-document-resolution-supported") = .throws .badVariant := by
      unfold Attrs.getList
      cases hg : KMap.get? j.printerAttrs (ascii "pwg-raster-document-resolution-supported") with
      | none => rw [hg] at hty; exact absurd (by simp [values]) hty
      | some x =>
        rw [hg] at hty
        obtain ⟨tag, v⟩ := x
        have : asList v = values (some (tag, v)) := by cases v <;> rfl
        rw [← this] at hty
        apply getAll_bad
        have := Classical.not_forall.mp hty
        obtain ⟨v, hv⟩ := this
        rw [Classical.not_imp] at hv
        exact ⟨v, hv⟩
    rw [hbad]; rfl

/-- The example job asks for 400 dpi; its printer lists 300 and 600. -/
example : Requested exampleJob 400 400 3 ∧ ListedPwg exampleJob.printerAttrs (300, 300) ∧
    (∀ r, ListedPwg exampleJob.printerAttrs r → ((400 : Nat) - (r.1 : Int)).natAbs < 2 ^ 31 ∧ ((400 : Nat) - (r.2 : Int)).natAbs < 2 ^ 31) := by
  refine ⟨⟨400, 400, by decide +kernel, by decide, by decide⟩, ⟨300, 300, by decide +kernel, by decide⟩, ?_⟩
  rintro r ⟨x, y, hm, rfl⟩
  have h : values (KMap.get? exampleJob.printerAttrs (ascii "pwg-raster-document-resolution-supported")) =
      [.res 300 300 3, .res 600 600 3] := by decide +kernel
  rw [h] at hm
  simp only [List.mem_cons, Value.res.injEq, List.not_mem_nil, or_false] at hm
  rcases hm with ⟨rfl, rfl, _⟩ | ⟨rfl, rfl, _⟩ <;> decide

/-- A printer that lists a resolution which differs by 2^31 from the 300 dpi that are asked for. -/
def farResolutionJob : PrintJob :=
  PrintJob.new
    [(ascii "document-format-supported", (0x49, .str pwg)),
     (ascii "pwg-raster-document-resolution-supported", (0x32, .set [.res 2147483948 300 3, .res 600 600 3]))] []

/-- C33 is false of the code: a resolution that differs from the request by 2^31 leads to `abs(INT_MIN)`, which is undefined. -/
theorem C33_resolution_pwg_false : ¬ C33_pwg_full := by
  intro hfull
  have h1 := (hfull defaultPipelines pdf 1 farResolutionJob 300 300 ⟨300, 300, by decide +kernel, by decide, by decide⟩).1
  exact h1 (by decide +kernel)

/-- C33 when the request is in dots per centimetre. -/
def C33_dpcm_full : Prop :=
  ∀ (pl : Pipelines) (input : Bytes) (pages : Int) (j j' : PrintJob) (rx ry : Nat), Requested j rx ry 4 →
    finalize pl input pages j = .ok (none, j') → j'.params.format = .PWG →
      -- in dpi, times 100
      Nearest (fun a b => ((a.1 : Int) * 254 - b.1 * 100).natAbs + ((a.2 : Int) * 254 - b.2 * 100).natAbs)
        (ListedPwg j.printerAttrs) (rx, ry) (j'.params.hwResW, j'.params.hwResH)

/-- A request for 118 dots per centimetre, which are 300 dpi. -/
def dpcmJob : PrintJob :=
  { PrintJob.new
      [(ascii "document-format-supported", (0x49, .str pwg)),
       (ascii "pwg-raster-document-resolution-supported", (0x32, .set [.res 100 100 3, .res 300 300 3]))] [] with
    jobAttrs := [(ascii "printer-resolution", (0x32, .res 118 118 4))] }

/-- C33 is false of the code for a request in dots per centimetre: the number is taken for dpi. -/
theorem C33_resolution_dpcm_false : ¬ C33_dpcm_full := by
  intro hfull
  obtain ⟨j', hj⟩ := finalized_ok (pl := defaultPipelines) (input := pdf) (pages := 1) (j := dpcmJob) (by decide +kernel)
  have hb : (match finalize defaultPipelines pdf 1 dpcmJob with
    | .ok (none, j') => decide (j'.params.format = .PWG ∧ j'.params.hwResW = 100 ∧ j'.params.hwResH = 100)
    | _ => false) = true := by decide +kernel
  rw [hj] at hb
  simp only [decide_eq_true_eq] at hb
  have hl : ListedPwg dpcmJob.printerAttrs (300, 300) := ⟨300, 300, by decide +kernel, by decide⟩
  rcases hfull _ _ _ _ _ 118 118 ⟨118, 118, by decide +kernel, by decide, by decide⟩ hj hb.1 with ⟨_, h1⟩ | ⟨h1, _⟩
  · have := h1 _ hl
    rw [hb.2.1, hb.2.2] at this
    exact absurd this (by decide)
  · exact h1 _ hl

/-! ## URF -/

theorem stoi_dec (n : Nat) (h : n < 2 ^ 31) : stoi (dec n) = .ok (n : Int) := by
  have hd := dec_digits n
  obtain ⟨b, bs, hb⟩ := List.exists_cons_of_ne_nil (dec_ne_nil n)
  have hbd : isDigit b = true := hd b (by rw [hb]; simp)
  have htake : (dec n).takeWhile isDigit = dec n := by
    have := takeWhile_all (p := isDigit) (l := dec n) (r := []) hd (by simp)
    simpa using this
  have hdrop : (dec n).dropWhile isSpace = dec n := by
    rw [hb, List.dropWhile_cons, if_neg (by simp [digit_not_space hbd])]
  have h1 : ¬ ((dec n).head? = some 45) := by rw [hb]; simpa using (digit_not_sign hbd).1
  have h2 : ¬ ((dec n).head? = some 43) := by rw [hb]; simpa using (digit_not_sign hbd).2
  unfold stoi
  simp only [hdrop, h1, h2, or_self, if_false, htake, digitsVal_dec, dec_ne_nil]
  rw [if_neg (by omega)]

theorem nearestUrf_spec {hw : Nat} (h1 : hw < 2 ^ 32) (ns : List Nat) (diff : Int) (best : Nat)
    (hlt : ∀ n ∈ ns, n < 2 ^ 31 ∧ ((hw : Int) - n).natAbs < 2 ^ 31) :
    ∃ r, nearestUrf hw diff best (ns.map dec) = .ok r ∧
    ((r = best ∧ ∀ n ∈ ns, diff ≤ ((hw : Int) - n).natAbs) ∨
     (r ∈ ns ∧ (((hw : Int) - r).natAbs : Int) < diff ∧ ∀ n ∈ ns, ((hw : Int) - r).natAbs ≤ ((hw : Int) - n).natAbs)) := by
  induction ns generalizing diff best with
  | nil => exact ⟨_, rfl, .inl (by simp)⟩
  | cons n ns ih =>
    obtain ⟨hn, hd⟩ := hlt n (List.mem_cons_self ..)
    have hlt' := fun m (hm : m ∈ ns) => hlt m (List.mem_cons_of_mem _ hm)
    have hi : Raster.i32ToNat (n : Int) = n := by unfold Raster.i32ToNat; omega
    rw [List.map_cons, nearestUrf, stoi_dec n hn, Outcome.bind_ok, hi, diff32_eq h1 (by omega) hd, absInt_small hd, Outcome.bind_ok]
    split
    · rename_i hl
      obtain ⟨r, hr, hcase⟩ := ih (((hw : Int) - n).natAbs) n hlt'
      refine ⟨r, hr, .inr ?_⟩
      rcases hcase with ⟨rfl, ha⟩ | ⟨hm, hb, hc⟩
      · refine ⟨List.mem_cons_self .., hl, fun m hm => ?_⟩
        rcases List.mem_cons.mp hm with rfl | hm
        · exact Nat.le_refl _
        · have := ha m hm; omega
      · refine ⟨List.mem_cons_of_mem _ hm, by omega, fun m hm => ?_⟩
        rcases List.mem_cons.mp hm with rfl | hm
        · omega
        · exact hc m hm
    · rename_i hnl
      obtain ⟨r, hr, hcase⟩ := ih diff best hlt'
      refine ⟨r, hr, ?_⟩
      rcases hcase with ⟨rfl, ha⟩ | ⟨hm, hb, hc⟩
      · refine .inl ⟨rfl, fun m hm => ?_⟩
        rcases List.mem_cons.mp hm with rfl | hm
        · omega
        · exact ha m hm
      · refine .inr ⟨List.mem_cons_of_mem _ hm, hb, fun m hm => ?_⟩
        rcases List.mem_cons.mp hm with rfl | hm
        · omega
        · exact hc m hm

theorem joinString_intercalate (sep : Bytes) (l : List Bytes) : Text.joinString sep l = sep.intercalate l := by
  induction l with
  | nil => rfl
  | cons x l ih =>
    cases l with
    | nil => simp [Text.joinString_one, List.intercalate]
    | cons y l =>
      rw [Text.joinString_cons, ih]
      simp [List.intercalate]

theorem startsWith_iff (s p : Bytes) : Text.startsWith s p = true ↔ p <+: s := by
  unfold Text.startsWith
  constructor
  · intro h
    split at h
    · rw [beq_iff_eq] at h
      exact ⟨s.drop p.length, by conv => lhs; lhs; rw [← h]
                                 exact List.take_append_drop ..⟩
    · cases h
  · rintro ⟨t, rfl⟩
    simp

theorem urfResolution_spec {hw : Nat} (l : List Bytes) :
    (∀ pre us post, l = pre ++ us :: post → ascii "RS" <+: us → (∀ s ∈ pre, ¬ ascii "RS" <+: s) →
      urfResolution hw l = nearestUrf hw 4294967295 hw (Text.splitString [45] (us.drop 2))) ∧
    ((∀ s ∈ l, ¬ ascii "RS" <+: s) → urfResolution hw l = .ok hw) := by
  induction l with
  | nil => exact ⟨(fun pre us post h => by simp at h), fun _ => rfl⟩
  | cons s l ih =>
    rw [urfResolution]
    constructor
    · rintro (_ | ⟨p, pre⟩) us post he hp hall
      · injection he with he1 he2
        subst he1
        rw [if_pos ((startsWith_iff _ _).mpr hp)]
      · injection he with he1 he2
        subst he1
        rw [if_neg (fun hx => hall _ (List.mem_cons_self ..) ((startsWith_iff _ _).mp hx))]
        exact ih.1 pre us post he2 hp (fun s' hs' => hall s' (List.mem_cons_of_mem _ hs'))
    · intro hall
      rw [if_neg (fun hx => hall s (List.mem_cons_self ..) ((startsWith_iff _ _).mp hx))]
      exact ih.2 (fun s' hs' => hall s' (List.mem_cons_of_mem _ hs'))

theorem strList_values {a : Attrs} {name : Bytes} {l : List Bytes} (h : strList a name = .ok l) :
    l = (values (KMap.get? a name)).map strOf ∧ ∀ v ∈ values (KMap.get? a name), v.ty = some .str := by
  unfold strList at h
  rw [Outcome.bind_eq_ok] at h
  obtain ⟨vs, hvs, h⟩ := h
  cases h
  obtain ⟨rfl, hty⟩ := getList_values hvs
  exact ⟨rfl, hty⟩

/-- C33 for URF: the resolution is symmetric. If the printer lists resolutions `ns` in its first RS entry, it is
the nearest of them to the numbers of the request (whatever its unit, `u`), made symmetric by taking the smaller number; without RS entry it is that number.
Missing to the full C33: RS entries after the first (`C33_resolution_urf_false`), and numbers that differ by 2^31 or more. -/
theorem C33_resolution_urf_partial (pl : Pipelines) (input : Bytes) (pages : Int) (j j' : PrintJob)
    (h : finalize pl input pages j = .ok (none, j')) (hf : j'.params.format = .URF) (rx ry : Nat) (u : UInt8) (hreq : Requested j rx ry u) :
    j'.params.hwResW = j'.params.hwResH ∧
    (∀ us ns pre post, RsEntry us ns → values (KMap.get? j.printerAttrs (ascii "urf-supported")) = pre ++ .str us :: post →
      (∀ s, .str s ∈ pre → ¬ ascii "RS" <+: s) →
      (∀ n ∈ ns, n < 2 ^ 31 ∧ ((min rx ry : Nat) - (n : Int)).natAbs < 2 ^ 31) →
      Nearest (fun a b : Nat => ((a : Int) - b).natAbs) (· ∈ ns) (min rx ry) j'.params.hwResW) ∧
    ((∀ s, Ipp.Spec.Declares (KMap.get? j.printerAttrs (ascii "urf-supported")) (.str s) → ¬ ascii "RS" <+: s) →
      j'.params.hwResW = min rx ry) := by
  obtain ⟨r⟩ := finalize_run h
  obtain ⟨e1, e2, e3⟩ := format_raster r
  have ha := after_frame r
  obtain ⟨rw7, rh7, hx32, hy32⟩ := requested_eq r hreq
  rw [hf] at e1
  rcases adjustRaster_ok r.h8 with ⟨hnr, _⟩ | ⟨_, w, hh, b, hres, _, hc⟩
  · exact absurd (.inr e1) hnr
  · obtain ⟨_, hw8, hh8⟩ := adjustCopies_params hc
    have hw' : j'.params.hwResW = w := by rw [ha.hwResW, hw8]; rfl
    have hh' : j'.params.hwResH = hh := by rw [ha.hwResH, hh8]; rfl
    rw [hw', hh']
    unfold adjustResolution at hres
    have hp : (withRaster r.j7 r.j7.params.hwResW r.j7.params.hwResH r.j7.params.backXformMode).params.format ≠ .PWG := by
      show r.j7.params.format ≠ .PWG
      rw [e1]; decide
    rw [if_neg hp, Outcome.bind_eq_ok] at hres
    obtain ⟨l, hl, hres⟩ := hres
    rw [Outcome.bind_eq_ok] at hres
    obtain ⟨q, hq, hres⟩ := hres
    have hl : strList j.printerAttrs (ascii "urf-supported") = .ok l := by rw [← hl, ← e3]; rfl
    have hq : urfResolution (min rx ry) l = .ok q := by rw [← hq, ← rw7, ← rh7]; rfl
    have hqe : q = w ∧ q = hh := by
      injection hres with hres
      exact ⟨congrArg (fun x => x.params.hwResW) hres, congrArg (fun x => x.params.hwResH) hres⟩
    obtain ⟨rfl, rfl⟩ := hqe
    have hm := mem_strList hl
    refine ⟨rfl, ?_, ?_⟩
    · rintro us ns pre post ⟨hne, rfl⟩ hd hall hsm
      have hsplit : Text.splitString [45] ((ascii "RS" ++ [45].intercalate (ns.map dec)).drop 2) = ns.map dec := by
        have : (ascii "RS" ++ [45].intercalate (ns.map dec)).drop 2 = Text.joinString [45] (ns.map dec) := by
          rw [joinString_intercalate]; rfl
        rw [this]
        refine Text.C20_split_join 45 _ (by simpa using hne) (fun p hp hx => ?_)
        obtain ⟨n, _, rfl⟩ := List.mem_map.mp hp
        exact (digit_not_sign (dec_digits n _ hx)).1 rfl
      obtain ⟨hlv, hty⟩ := strList_values hl
      rw [(urfResolution_spec l).1 (pre.map strOf) (ascii "RS" ++ [45].intercalate (ns.map dec)) (post.map strOf)
        (by rw [hlv, hd, List.map_append, List.map_cons]; rfl) ⟨_, rfl⟩ (fun s hs => by
        obtain ⟨v, hv, rfl⟩ := List.mem_map.mp hs
        refine hall _ ?_
        rw [← strOf_ty (hty v (by rw [hd]; simp [hv]))]
        exact hv), hsplit] at hq
      obtain ⟨r', hr', hcase⟩ := nearestUrf_spec (hw := min rx ry) (by omega) ns 4294967295 (min rx ry) hsm
      rw [hr'] at hq
      injection hq with hq
      subst hq
      rcases hcase with ⟨e, hno⟩ | ⟨hin, _, hmin⟩
      · exfalso
        obtain ⟨n, ns, rfl⟩ := List.exists_cons_of_ne_nil hne
        have h1 := hno n (List.mem_cons_self ..)
        have h2 := (hsm n (List.mem_cons_self ..)).2
        omega
      · exact .inl ⟨hin, hmin⟩
    · intro hall
      rw [(urfResolution_spec l).2 (fun s hs => hall s ((hm s).mp hs))] at hq
      injection hq with hq
      exact hq.symm

/-- A printer for URF with 300 and 600 dpi. -/
def urfJob : PrintJob :=
  { PrintJob.new [(ascii "document-format-supported", (0x49, .str urf)),
                  (ascii "urf-supported", (0x44, .set [.str (ascii "V1.4"), .str (ascii "RS300-600"), .str (ascii "DM3")]))] [] with
    jobAttrs := [(ascii "printer-resolution", (0x32, .res 500 1200 3))] }

example : RsEntry (ascii "RS300-600") [300, 600] ∧ Requested urfJob 500 1200 3 ∧ finalized defaultPipelines pdf 1 urfJob = true ∧
    values (KMap.get? urfJob.printerAttrs (ascii "urf-supported")) = [.str (ascii "V1.4")] ++ .str (ascii "RS300-600") :: [.str (ascii "DM3")] := by
  refine ⟨⟨by simp, by decide +kernel⟩, ⟨500, 1200, by decide +kernel, by decide, by decide⟩, by decide +kernel, by decide +kernel⟩

/-- The full C33 for URF: nearest among all resolutions of all RS entries. -/
def C33_urf_full : Prop :=
  ∀ (pl : Pipelines) (input : Bytes) (pages : Int) (j j' : PrintJob) (rx ry : Nat), Requested j rx ry 3 →
    finalize pl input pages j = .ok (none, j') → j'.params.format = .URF →
      Nearest (fun a b : Nat => ((a : Int) - b).natAbs)
        (fun n => ∃ us ns, RsEntry us ns ∧ n ∈ ns ∧ Ipp.Spec.Declares (KMap.get? j.printerAttrs (ascii "urf-supported")) (.str us))
        (min rx ry) j'.params.hwResW

/-- A printer with two RS entries. -/
def twoRsJob : PrintJob :=
  PrintJob.new [(ascii "document-format-supported", (0x49, .str urf)),
                (ascii "urf-supported", (0x44, .set [.str (ascii "RS600"), .str (ascii "RS300")]))] []

/-- C33 is false of the code for several RS entries, of which only the first counts. -/
theorem C33_resolution_urf_false : ¬ C33_urf_full := by
  intro hfull
  obtain ⟨j', hj⟩ := finalized_ok (pl := defaultPipelines) (input := pdf) (pages := 1) (j := twoRsJob) (by decide +kernel)
  have hb : (match finalize defaultPipelines pdf 1 twoRsJob with
    | .ok (none, j') => decide (j'.params.format = .URF ∧ j'.params.hwResW = 600)
    | _ => false) = true := by decide +kernel
  rw [hj] at hb
  simp only [decide_eq_true_eq] at hb
  have hl : ∃ us ns, RsEntry us ns ∧ 300 ∈ ns ∧ Ipp.Spec.Declares (KMap.get? twoRsJob.printerAttrs (ascii "urf-supported")) (.str us) := by
    refine ⟨ascii "RS300", [300], ⟨by simp, by decide +kernel⟩, by simp, ?_⟩
    have h : KMap.get? twoRsJob.printerAttrs (ascii "urf-supported") =
      some (0x44, .set [.str (ascii "RS600"), .str (ascii "RS300")]) := by decide +kernel
    rw [h]
    simp [Ipp.Spec.Declares]
  rcases hfull _ _ _ _ _ 300 300 ⟨300, 300, by decide +kernel, by decide, by decide⟩ hj hb.1 with ⟨_, h1⟩ | ⟨h1, _⟩
  · have := h1 300 hl
    rw [hb.2] at this
    exact absurd this (by decide)
  · exact h1 300 hl

end Verif.Job
