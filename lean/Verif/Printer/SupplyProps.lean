import Verif.Printer.RunProps
import Verif.Text.Props

/-!
# Properties C51, C55, C56, C57, C58: supplies, firmware, warnings, and how a document is sent
-/

namespace Verif.Printer

open Ipp Job Job.Spec Spec

/-! ## Specification -/

namespace Spec

/-- The values of an attribute of the printer. -/
def listed (p : Printer) (name : String) : List Value := values (KMap.get? p.attrs (ascii name))

/-- The marker at a position of the parallel lists of the printer, apart from its colors. -/
def IsMarker (p : Printer) (i : Nat) (s : Supply) : Prop :=
  (listed p "marker-names")[i]? = some (.str s.name) ∧ (listed p "marker-types")[i]? = some (.str s.type) ∧
  (listed p "marker-levels")[i]? = some (.int s.level) ∧ (listed p "marker-low-levels")[i]? = some (.int s.lowLevel) ∧
  (listed p "marker-high-levels")[i]? = some (.int s.highLevel)

/-- The text for colors: each as # and digits, one after the other. -/
def colorText (colors : List Bytes) : Bytes := colors.flatMap (fun c => 35 :: c)

end Spec

/-- The supplies as one list of six. -/
def zipSupplies : List Bytes → List Bytes → List Bytes → List Int → List Int → List Int → List Supply
  | n :: ns, t :: ts, c :: cs, l :: ls, w :: ws, h :: hs => ⟨n, t, colorList c, l, w, h⟩ :: zipSupplies ns ts cs ls ws hs
  | _, _, _, _, _, _ => []

theorem supplyLoop_eq (n t c : List Bytes) (l w h : List Int) : supplyLoop n t c l w h = .ok (zipSupplies n t c l w h) := by
  induction n generalizing t c l w h with
  | nil => cases t <;> rfl
  | cons a n ih =>
    cases t with
    | nil => rfl
    | cons => cases c with
      | nil => rfl
      | cons => cases l with
        | nil => rfl
        | cons => cases w with
          | nil => rfl
          | cons => cases h with
            | nil => rfl
            | cons => simp [supplyLoop, zipSupplies, deref, ih]

theorem supplies_eq (p : Printer) : supplies p = (do
    let names ← strList p.attrs (ascii "marker-names")
    let types ← strList p.attrs (ascii "marker-types")
    let colors ← strList p.attrs (ascii "marker-colors")
    let levels ← intList p.attrs (ascii "marker-levels")
    let lowLevels ← intList p.attrs (ascii "marker-low-levels")
    let highLevels ← intList p.attrs (ascii "marker-high-levels")
    return zipSupplies names types colors levels lowLevels highLevels) := by
  unfold supplies
  simp only [supplyLoop_eq]
  rfl

/-- The firmware as one list of two. -/
def zipFirmware : List Bytes → List Bytes → List (Bytes × Bytes)
  | n :: ns, v :: vs => (n, v) :: zipFirmware ns vs
  | _, _ => []

theorem firmwareLoop_eq (n v : List Bytes) : firmwareLoop n v = .ok (zipFirmware n v) := by
  induction n generalizing v with
  | nil => cases v <;> rfl
  | cons a n ih =>
    cases v with
    | nil => rfl
    | cons => simp [firmwareLoop, zipFirmware, deref, ih]

theorem firmware_eq (p : Printer) : firmware p = (do
    let names ← strList p.attrs (ascii "printer-firmware-name")
    let versions ← strList p.attrs (ascii "printer-firmware-string-version")
    return zipFirmware names versions) := by
  unfold firmware
  simp only [firmwareLoop_eq]
  rfl

/-! ## C51 -/

theorem mem_zip {n t c : List Bytes} {l w h : List Int} (i : Nat) (s : Supply) :
    (zipSupplies n t c l w h)[i]? = some s ↔
      n[i]? = some s.name ∧ t[i]? = some s.type ∧ (∃ ct, c[i]? = some ct ∧ s.colors = colorList ct) ∧ l[i]? = some s.level ∧
      w[i]? = some s.lowLevel ∧ h[i]? = some s.highLevel := by
  induction n, t, c, l, w, h using zipSupplies.induct generalizing i with
  | case1 n ns t ts c cs l ls w ws h hs ih =>
    rw [zipSupplies]
    cases i with
    | zero =>
      obtain ⟨a, b, d, e, f, g⟩ := s
      simp only [List.getElem?_cons_zero, Option.some.injEq, Supply.mk.injEq]
      constructor
      · rintro ⟨rfl, rfl, rfl, rfl, rfl, rfl⟩; exact ⟨rfl, rfl, ⟨c, rfl, rfl⟩, rfl, rfl, rfl⟩
      · rintro ⟨rfl, rfl, ⟨_, rfl, rfl⟩, rfl, rfl, rfl⟩; exact ⟨rfl, rfl, rfl, rfl, rfl, rfl⟩
    | succ i => simpa using ih i
  | case2 n t c l w h hne =>
    have hz : zipSupplies n t c l w h = [] := by
      unfold zipSupplies
      split
      · rename_i x1 x2 x3 x4 x5 x6 x7 x8 x9 x10 x11 x12
        exact (hne _ _ _ _ _ _ _ _ _ _ _ _ rfl rfl rfl rfl rfl rfl).elim
      · rfl
    rw [hz]
    simp only [List.getElem?_nil, reduceCtorEq, false_iff]
    rintro ⟨h1, h2, ⟨ct, h3, _⟩, h4, h5, h6⟩
    cases n with
    | nil => simp at h1
    | cons => cases t with
      | nil => simp at h2
      | cons => cases c with
        | nil => simp at h3
        | cons => cases l with
          | nil => simp at h4
          | cons => cases w with
            | nil => simp at h5
            | cons => cases h with
              | nil => simp at h6
              | cons => exact hne _ _ _ _ _ _ _ _ _ _ _ _ rfl rfl rfl rfl rfl rfl

theorem strList_get {a : Attrs} {name : Bytes} {l : List Bytes} (h : strList a name = .ok l) (i : Nat) (s : Bytes) :
    l[i]? = some s ↔ (values (KMap.get? a name))[i]? = some (.str s) := by
  unfold strList at h
  rw [Outcome.bind_eq_ok] at h
  obtain ⟨vs, hvs, h⟩ := h
  cases h
  obtain ⟨rfl, hty⟩ := getList_values hvs
  rw [List.getElem?_map]
  cases hg : (values (KMap.get? a name))[i]? with
  | none => simp
  | some v =>
    have := strOf_ty (hty v (List.mem_of_getElem? hg))
    simp only [Option.map_some, Option.some.injEq]
    constructor
    · rintro rfl; exact this
    · rintro rfl; rfl

theorem intList_get {a : Attrs} {name : Bytes} {l : List Int} (h : intList a name = .ok l) (i : Nat) (s : Int) :
    l[i]? = some s ↔ (values (KMap.get? a name))[i]? = some (.int s) := by
  unfold intList at h
  rw [Outcome.bind_eq_ok] at h
  obtain ⟨vs, hvs, h⟩ := h
  cases h
  obtain ⟨rfl, hty⟩ := getList_values hvs
  rw [List.getElem?_map]
  cases hg : (values (KMap.get? a name))[i]? with
  | none => simp
  | some v =>
    have := intOf_ty (hty v (List.mem_of_getElem? hg))
    simp only [Option.map_some, Option.some.injEq]
    constructor
    · rintro rfl; exact this
    · rintro rfl; rfl

/-- C51: the entry at a position is made of the values at that position of each of the six lists of the printer; and there is an entry
at every position at which all the lists have one. -/
theorem C51_supplies (p : Printer) (l : List Supply) (h : supplies p = .ok l) (i : Nat) :
    (∀ s, l[i]? = some s → IsMarker p i s ∧ ∃ ct, (listed p "marker-colors")[i]? = some (.str ct) ∧ s.colors = colorList ct) ∧
    (i < (listed p "marker-names").length → i < (listed p "marker-types").length → i < (listed p "marker-colors").length →
      i < (listed p "marker-levels").length → i < (listed p "marker-low-levels").length → i < (listed p "marker-high-levels").length →
      i < l.length) := by
  rw [supplies_eq] at h
  rw [Outcome.bind_eq_ok] at h; obtain ⟨n, hn, h⟩ := h
  rw [Outcome.bind_eq_ok] at h; obtain ⟨t, ht, h⟩ := h
  rw [Outcome.bind_eq_ok] at h; obtain ⟨c, hc, h⟩ := h
  rw [Outcome.bind_eq_ok] at h; obtain ⟨lv, hl, h⟩ := h
  rw [Outcome.bind_eq_ok] at h; obtain ⟨w, hw, h⟩ := h
  rw [Outcome.bind_eq_ok] at h; obtain ⟨hi, hh, h⟩ := h
  cases h
  have len : ∀ {name : Bytes} {x : List Bytes}, strList p.attrs name = .ok x → x.length = (values (KMap.get? p.attrs name)).length := by
    intro name x hx
    unfold strList at hx
    rw [Outcome.bind_eq_ok] at hx
    obtain ⟨vs, hvs, hx⟩ := hx
    cases hx
    rw [(getList_values hvs).1]; simp
  have ilen : ∀ {name : Bytes} {x : List Int}, intList p.attrs name = .ok x → x.length = (values (KMap.get? p.attrs name)).length := by
    intro name x hx
    unfold intList at hx
    rw [Outcome.bind_eq_ok] at hx
    obtain ⟨vs, hvs, hx⟩ := hx
    cases hx
    rw [(getList_values hvs).1]; simp
  constructor
  · intro s hs
    obtain ⟨h1, h2, ⟨ct, h3, h3'⟩, h4, h5, h6⟩ := (mem_zip i s).mp hs
    exact ⟨⟨(strList_get hn i _).mp h1, (strList_get ht i _).mp h2, (intList_get hl i _).mp h4, (intList_get hw i _).mp h5,
      (intList_get hh i _).mp h6⟩, ct, (strList_get hc i _).mp h3, h3'⟩
  · intro k1 k2 k3 k4 k5 k6
    unfold listed at k1 k2 k3 k4 k5 k6
    rw [← len hn] at k1
    rw [← len ht] at k2
    rw [← len hc] at k3
    rw [← ilen hl] at k4
    rw [← ilen hw] at k5
    rw [← ilen hh] at k6
    have := (mem_zip (n := n) (t := t) (c := c) (l := lv) (w := w) (h := hi) i ⟨n[i], t[i], colorList c[i], lv[i], w[i], hi[i]⟩).mpr
      ⟨by simp, by simp, ⟨c[i], by simp, rfl⟩, by simp, by simp, by simp⟩
    exact (List.getElem?_eq_some_iff.mp this).1

/-- C51: a text of colors, each # and something without #, is taken apart into them; "none" and the empty text too. -/
theorem C51_colors (colors : List Bytes) (h : ∀ c ∈ colors, c ≠ [] ∧ c ≠ ascii "none" ∧ 35 ∉ c) :
    colorList (colorText colors) = colors.map (fun c => 35 :: c) ∧ colorList (ascii "none") = [ascii "none"] := by
  constructor
  · have hs : Text.splitString [35] (colorText colors) = [] :: colors ∨ colors = [] := by
      cases colors with
      | nil => exact .inr rfl
      | cons c cs =>
        left
        have hj : colorText (c :: cs) = Text.joinString [35] ([] :: c :: cs) := by
          rw [Text.joinString_cons]
          have : ∀ (c : Bytes) (cs : List Bytes), colorText (c :: cs) = 35 :: Text.joinString [35] (c :: cs) := by
            intro c cs
            induction cs generalizing c with
            | nil => simp [colorText, Text.joinString_one]
            | cons d cs ih =>
              rw [Text.joinString_cons]
              have : colorText (c :: d :: cs) = 35 :: (c ++ colorText (d :: cs)) := by simp [colorText]
              rw [this, ih d]; simp
          rw [this]; rfl
        rw [hj]
        refine Text.C20_split_join 35 _ (by simp) (fun q hq => ?_)
        rcases List.mem_cons.mp hq with rfl | hq
        · simp
        · exact (h q hq).2.2
    rcases hs with hs | rfl
    · unfold colorList
      rw [hs]
      have hf : ([] :: colors).filter (fun c => decide (c ≠ [])) = colors := by
        rw [List.filter_cons_of_neg (by simp), List.filter_eq_self]
        intro c hc
        simp [(h c hc).1]
      rw [hf]
      apply List.map_congr_left
      intro c hc
      rw [if_neg (h c hc).2.1]; rfl
    · decide +kernel
  · decide +kernel

example : colorList (ascii "#00FFFF#FF00FF") = [ascii "#00FFFF", ascii "#FF00FF"] := by decide +kernel

/-- The full C51: one entry per marker name. -/
def C51_full : Prop :=
  ∀ (p : Printer) (l : List Supply), supplies p = .ok l → l.length = (listed p "marker-names").length

/-- C51: one entry per named marker when all the lists are as long as that of the names.
Missing to the full C51: printers that leave out one of the lists. -/
theorem C51_one_per_marker_partial (p : Printer) (l : List Supply) (h : supplies p = .ok l)
    (hl : ∀ n ∈ ["marker-types", "marker-colors", "marker-levels", "marker-low-levels", "marker-high-levels"],
      (listed p n).length = (listed p "marker-names").length) : l.length = (listed p "marker-names").length := by
  have h1 := hl "marker-types" (by simp)
  have h2 := hl "marker-colors" (by simp)
  have h3 := hl "marker-levels" (by simp)
  have h4 := hl "marker-low-levels" (by simp)
  have h5 := hl "marker-high-levels" (by simp)
  apply Nat.le_antisymm
  · cases Nat.lt_or_ge (listed p "marker-names").length l.length with
    | inr hge => exact hge
    | inl hlt =>
      have hs := (C51_supplies p l h _).1 _ (List.getElem?_eq_getElem hlt)
      have hn := hs.1.1
      rw [List.getElem?_eq_none (Nat.le_refl _)] at hn
      cases hn
  · cases Nat.lt_or_ge l.length (listed p "marker-names").length with
    | inr hge => exact hge
    | inl hlt =>
      have := (C51_supplies p l h l.length).2 hlt (by omega) (by omega) (by omega) (by omega) (by omega)
      omega

/-- A printer with two markers that does not say its low levels. -/
def noLowLevels : Printer :=
  { addr := [], attrs := [(ascii "marker-colors", (0x42, .set [.str (ascii "#000000"), .str (ascii "#00FFFF")])),
      (ascii "marker-high-levels", (0x21, .set [.int 100, .int 100])), (ascii "marker-levels", (0x21, .set [.int 7, .int 8])),
      (ascii "marker-names", (0x42, .set [.str (ascii "Black"), .str (ascii "Cyan")])),
      (ascii "marker-types", (0x44, .set [.str (ascii "toner"), .str (ascii "toner")]))] }

/-- C51 is false of the code: a printer that leaves out one of the (optional) lists has no supplies at all. -/
theorem C51_one_per_marker_false : ¬ C51_full := by
  intro h
  have := h noLowLevels [] (by decide +kernel)
  revert this
  decide +kernel

/-- A printer with all lists. -/
def withLevels : Printer :=
  { noLowLevels with attrs := KMap.assign noLowLevels.attrs (ascii "marker-low-levels") (0x21, .set [.int 10, .int 10]) }

example : supplies withLevels =
    .ok [⟨ascii "Black", ascii "toner", [ascii "#000000"], 7, 10, 100⟩, ⟨ascii "Cyan", ascii "toner", [ascii "#00FFFF"], 8, 10, 100⟩] := by
  decide +kernel

/-! ## C55: percentages -/

/-- The full C55: the percentage of a supply is found without undefined behaviour. -/
def C55_full : Prop := ∀ s : Supply, (∀ i ∈ [s.level, s.lowLevel, s.highLevel], -2 ^ 31 ≤ i ∧ i < 2 ^ 31) → getPercent s ≠ .ub

/-- C55: the percentage of a level between 0 and the highest one is the integer from 0 to 100 below the exact one, 0 for empty and 100 for
full. Missing to the full C55: other levels. -/
theorem C55_percent_partial (s : Supply) (h0 : 0 ≤ s.level) (h1 : s.level ≤ s.highLevel) (h2 : 0 < s.highLevel) :
    ∃ q, getPercent s = .ok q ∧ 0 ≤ q ∧ q ≤ 100 ∧ q * s.highLevel ≤ s.level * 100 ∧ s.level * 100 < (q + 1) * s.highLevel ∧
      (s.level = s.highLevel → q = 100) ∧ (s.level = 0 → q = 0) := by
  have hq : (s.level * 100).tdiv s.highLevel = s.level * 100 / s.highLevel := Int.tdiv_eq_ediv_of_nonneg (by omega)
  have h100 : s.level * 100 / s.highLevel ≤ 100 :=
    Int.ediv_le_of_le_mul h2 (by omega)
  have hpos : 0 ≤ s.level * 100 / s.highLevel := Int.ediv_nonneg (by omega) (by omega)
  refine ⟨s.level * 100 / s.highLevel, ?_, hpos, h100, Int.ediv_mul_le _ (by omega), ?_, ?_, ?_⟩
  · unfold getPercent
    simp only [if_pos (show s.highLevel ≠ 0 by omega), hq]
    rw [if_neg (by omega)]
  · have h3 := Int.emod_add_mul_ediv (s.level * 100) s.highLevel
    have h4 := Int.emod_lt_of_pos (s.level * 100) h2
    rw [Int.add_mul, Int.mul_comm (s.level * 100 / s.highLevel)]
    omega
  · intro h
    rw [h, Int.mul_comm, Int.mul_ediv_cancel _ (by omega)]
  · intro h
    rw [h]; simp

/-- C55, when the printer says 0 for the highest level: the level is taken for a percentage, and there is no division by 0. -/
theorem C55_no_highest (s : Supply) (h0 : 0 ≤ s.level) (h1 : s.level ≤ 100) (h2 : s.highLevel = 0) : getPercent s = .ok s.level := by
  unfold getPercent
  rw [h2]
  simp only [ne_eq, not_true_eq_false, if_false]
  rw [Int.mul_tdiv_cancel _ (by decide), if_neg (by omega)]

example : getPercent ⟨[], [], [], 7, 0, 0⟩ = .ok 7 := C55_no_highest _ (by decide) (by decide) rfl

/-- C55 is false of the code: a level of 30000000 with the highest level 1 gives a number that no `int` can hold. -/
theorem C55_percent_false : ¬ C55_full := by
  intro h
  exact h ⟨[], [], [], 30000000, 0, 1⟩ (by decide) (by decide)

example : getPercent ⟨[], [], [], 7, 0, 9⟩ = .ok 77 := by decide

/-! ## C56: firmware and warnings -/

/-- C56: each firmware has its own version. -/
theorem C56_firmware (p : Printer) (l : List (Bytes × Bytes)) (h : firmware p = .ok l) (i : Nat) (n v : Bytes) :
    l[i]? = some (n, v) ↔
      (listed p "printer-firmware-name")[i]? = some (.str n) ∧ (listed p "printer-firmware-string-version")[i]? = some (.str v) := by
  rw [firmware_eq] at h
  rw [Outcome.bind_eq_ok] at h; obtain ⟨ns, hn, h⟩ := h
  rw [Outcome.bind_eq_ok] at h; obtain ⟨vs, hv, h⟩ := h
  cases h
  unfold listed
  rw [← strList_get hn, ← strList_get hv]
  clear hn hv
  induction ns generalizing vs i with
  | nil => simp [zipFirmware]
  | cons a ns ih =>
    cases vs with
    | nil => simp [zipFirmware]
    | cons b vs =>
      rw [zipFirmware]
      cases i with
      | zero => simp
      | succ i => simpa using ih i vs

/-- C56: the printer is in a state to warn of when it is stopped (above 4), or has a reason other than "none" and reports. -/
theorem C56_warning (p : Printer) (b : Bool) (h : isWarningState p = .ok b) :
    b = true ↔ (∃ tag i, KMap.get? p.attrs (ascii "printer-state") = some (tag, .int i) ∧ i > 4) ∨
      ∃ r, .str r ∈ listed p "printer-state-reasons" ∧ r ≠ ascii "none" ∧ ¬ ascii "-report" <:+ r := by
  unfold isWarningState at h
  rw [Outcome.bind_eq_ok] at h; obtain ⟨state, hs, h⟩ := h
  have hst : state > 4 ↔ ∃ tag i, KMap.get? p.attrs (ascii "printer-state") = some (tag, .int i) ∧ i > 4 := by
    unfold getInteger Attrs.get at hs
    cases hg : KMap.get? p.attrs (ascii "printer-state") with
    | none => rw [hg] at hs; cases hs; simp [intOf]
    | some x =>
      rw [hg] at hs
      obtain ⟨tag, v⟩ := x
      have := getAs_bind_int hs rfl
      simp only at this
      subst this
      constructor
      · intro hx; exact ⟨tag, state, rfl, hx⟩
      · rintro ⟨_, _, he, hx⟩; cases he; exact hx
  split at h
  · rename_i hgt
    cases h
    exact ⟨fun _ => .inl (hst.mp hgt), fun _ => rfl⟩
  · rename_i hgt
    rw [Outcome.bind_eq_ok] at h; obtain ⟨rs, hr, h⟩ := h
    cases h
    have hends : ∀ r : Bytes, Text.endsWith r (ascii "-report") = true ↔ ascii "-report" <:+ r := by
      intro r
      unfold Text.endsWith
      constructor
      · intro he
        split at he
        · rw [beq_iff_eq] at he
          refine ⟨r.take (r.length - (ascii "-report").length), ?_⟩
          conv => lhs; rhs; rw [← he]
          exact List.take_append_drop ..
        · cases he
      · rintro ⟨t, rfl⟩
        simp
    have hw : warns rs = true ↔ ∃ r ∈ rs, r ≠ ascii "none" ∧ ¬ ascii "-report" <:+ r := by
      clear hr
      induction rs with
      | nil => simp [warns]
      | cons r rs ih =>
        rw [warns]
        split
        · rename_i hc
          refine ⟨fun _ => ⟨r, List.mem_cons_self .., hc.1, fun hx => ?_⟩, fun _ => rfl⟩
          rw [(hends r).mpr hx] at hc
          exact absurd hc.2 (by simp)
        · rename_i hc
          rw [ih]
          constructor
          · rintro ⟨x, hx, h⟩; exact ⟨x, List.mem_cons_of_mem _ hx, h⟩
          · rintro ⟨x, hx, h⟩
            rcases List.mem_cons.mp hx with rfl | hx
            · refine absurd ⟨h.1, ?_⟩ hc
              cases he : Text.endsWith x (ascii "-report")
              · rfl
              · exact absurd ((hends x).mp he) h.2
            · exact ⟨x, hx, h⟩
    rw [hw]
    constructor
    · rintro ⟨r, hm, h⟩
      obtain ⟨i, hi⟩ := List.getElem?_of_mem hm
      exact .inr ⟨r, List.mem_of_getElem? ((strList_get hr i r).mp hi), h⟩
    · rintro (h | ⟨r, hm, h⟩)
      · exact absurd (hst.mpr h) hgt
      · obtain ⟨i, hi⟩ := List.getElem?_of_mem hm
        exact ⟨r, List.mem_of_getElem? ((strList_get hr i r).mpr hi), h⟩

example : isWarningState { addr := [], attrs := [(ascii "printer-state", (0x23, .int 3)),
    (ascii "printer-state-reasons", (0x44, .set [.str (ascii "none"), .str (ascii "toner-low-report")]))] } = .ok false ∧
    isWarningState { addr := [], attrs := [(ascii "printer-state", (0x23, .int 3)),
    (ascii "printer-state-reasons", (0x44, .set [.str (ascii "toner-low-report"), .str (ascii "media-empty")]))] } = .ok true := by
  decide +kernel

/-! ## C57: the document that is sent -/

namespace Spec

/-- The bytes of the document in an event. -/
def blockOf : Event → Bytes
  | .block b => b
  | _ => []

/-- The document that is sent. -/
def document (es : List Event) : Bytes := es.flatMap blockOf

end Spec

theorem document_blocks (bs : List Bytes) : document (blockEvents bs) = bs.flatten := by
  unfold document blockEvents
  induction bs with
  | nil => rfl
  | cons b bs ih =>
    by_cases hb : b = []
    · subst hb
      rw [List.filter_cons_of_neg (by simp), ih]; rfl
    · rw [List.filter_cons_of_pos (by simp [hb]), List.map_cons, List.flatMap_cons, ih]; rfl

theorem document_compression (c : Bytes) : document (compressionEvents c) = [] := by
  unfold compressionEvents
  split
  · rfl
  · split <;> rfl

/-- What `doPrint` sends when it comes to converting. -/
theorem doPrint_document (env : Env) (id : Nat) (job : PrintJob) (f : ConvertFun) (m : Msg) (e : Option RunError)
    (h : (doPrint env id job f m).out = .ok e) :
    document (doPrint env id job f m).events = (env.convert f job).1.flatten ∧ .finish ∈ (doPrint env id job f m).events ∧
    ((env.convert f job).2 = .ok none ∨ ∃ t, (env.convert f job).2 = .ok (some t) ∧ e = some (.convert t)) := by
  unfold doPrint at h ⊢
  rcases lift_bind (encodeMsg id m)
    (fun bytes => Act.emit [.openStream m bytes] >>= fun _ => useCompression job >>= fun _ => convertAndAwait env f job) with
    ⟨bytes, hb, he⟩ | hd
  · rw [he, emit_bind] at h ⊢
    have h : (useCompression job >>= fun _ => convertAndAwait env f job).out = .ok e := h
    obtain ⟨u, hu, hc⟩ := bind_out h
    have hev : (useCompression job >>= fun _ => convertAndAwait env f job).events =
        (useCompression job).events ++ (convertAndAwait env f job).events := by
      show (Act.bind _ _).events = _
      unfold Act.bind
      rw [hu]
    have hcomp : document (useCompression job).events = [] := by
      unfold useCompression
      split
      · exact document_compression _
      · rfl
      · rfl
      · rfl
    have hdoc : document (convertAndAwait env f job).events = (env.convert f job).1.flatten ∧ .finish ∈ (convertAndAwait env f job).events ∧
        ((env.convert f job).2 = .ok none ∨ ∃ t, (env.convert f job).2 = .ok (some t) ∧ e = some (.convert t)) := by
      unfold convertAndAwait at hc ⊢
      cases hcv : env.convert f job with
      | mk blocks r =>
        rw [hcv] at hc
        cases r with
        | ok x =>
          cases x with
          | none =>
            refine ⟨?_, by simp, .inl rfl⟩
            show document (blockEvents blocks ++ [.finish] ++ (printResult env.showJobId env.printReply).events) = _
            have hr : document (printResult env.showJobId env.printReply).events = [] := by
              rcases printResult_events env.showJobId env.printReply with h | ⟨id, h⟩ <;> rw [h] <;> rfl
            unfold document at hr ⊢
            rw [List.flatMap_append, List.flatMap_append, hr]
            have := document_blocks blocks
            unfold document at this
            rw [this]; simp [blockOf]
          | some t =>
            cases hc
            refine ⟨?_, by simp, .inr ⟨t, rfl, rfl⟩⟩
            show document (blockEvents blocks ++ [.finish]) = _
            unfold document
            rw [List.flatMap_append]
            have := document_blocks blocks
            unfold document at this
            rw [this]; simp [blockOf]
        | throws e => cases hc
        | ub => cases hc
        | hang => cases hc
    refine ⟨?_, ?_, hdoc.2.2⟩
    · show document ([.openStream m bytes] ++ (useCompression job >>= fun _ => convertAndAwait env f job).events) = _
      rw [hev]
      unfold document at hcomp hdoc ⊢
      rw [List.flatMap_append, List.flatMap_append, hcomp, hdoc.1]; rfl
    · show Event.finish ∈ [.openStream m bytes] ++ (useCompression job >>= fun _ => convertAndAwait env f job).events
      rw [hev]
      simp [hdoc.2.1]
  · exact absurd h (hd.2 e)

/-- C57: when `runJob` reports success, the document that was sent is the concatenation of the blocks that the converter wrote, in order,
the converter had not failed, and the end of the document was signalled. -/
theorem C57_document (env : Env) (p : Printer) (job : PrintJob) (input fileName : Bytes) (pages : Int) (hfile : ¬ IsFile p)
    (h : (runJob env p job input fileName pages).out = .ok none) :
    ∃ j' f, finalize env.pipelines input pages job.copy = .ok (none, j') ∧
      getConvertFun env.pipelines input j'.targetFormat = some f ∧ (env.convert f j').2 = .ok none ∧
      document (runJob env p job input fileName pages).events = (env.convert f j').1.flatten ∧
      .finish ∈ (runJob env p job input fileName pages).events := by
  have hev : (runJob env p job input fileName pages).events = (tryRun env p job.copy input fileName pages).events := catchAll_events _
  have h : (tryRun env p job.copy input fileName pages).out = .ok none := catchAll_ends ⟨h, fun x hx => nomatch hx⟩
  rw [hev]
  unfold tryRun at h ⊢
  obtain ⟨ops, ho, h1⟩ := bind_out h
  obtain ⟨⟨e, j'⟩, hf, h2⟩ := bind_out h1
  have ho : intList p.attrs (ascii "operations-supported") = .ok ops := ho
  have hf : finalize env.pipelines input pages job.copy = .ok (e, j') := hf
  rw [ho, hf, lift_bind_ok, lift_bind_ok]
  cases e with
  | some e => cases h2
  | none =>
    simp only [afterFinalize] at h2 ⊢
    cases hg : getConvertFun env.pipelines input j'.targetFormat with
    | none => rw [hg] at h2; cases h2
    | some f =>
      rw [hg] at h2
      refine ⟨j', f, rfl, hg, ?_⟩
      simp only at h2 ⊢
      have hdel : deliver env p j' f fileName ops = transmit env p j' f fileName ops := by
        unfold deliver
        rw [if_neg (fun h => hfile ((startsWith_file p).mp h))]
      rw [hdel] at h2 ⊢
      unfold transmit at h2 ⊢
      have fin : ∀ (x : Act (Option RunError)) id m (pre : List Event), document pre = [] →
          x.events = pre ++ (doPrint env id j' f m).events → (doPrint env id j' f m).out = .ok none →
          (env.convert f j').2 = .ok none ∧ document x.events = (env.convert f j').1.flatten ∧ .finish ∈ x.events := by
        intro x id m pre hpre hx hd
        obtain ⟨d1, d2, d3⟩ := doPrint_document env id j' f m none hd
        refine ⟨?_, ?_, ?_⟩
        · rcases d3 with d3 | ⟨_, _, d3⟩
          · exact d3
          · cases d3
        · rw [hx]
          unfold document at hpre d1 ⊢
          rw [List.flatMap_append, hpre, d1]; rfl
        · rw [hx]; exact List.mem_append_right _ d2
      split at h2
      · rename_i hc
        rw [if_pos hc]
        unfold createAndSend at h2 ⊢
        obtain ⟨m, hm, h3⟩ := bind_out h2
        have hm : mkMsg p 0x0005 [(ascii "job-name", (0x42, .str fileName))] j'.jobAttrs [] = .ok m := hm
        rw [hm, lift_bind_ok]
        obtain ⟨r, hr, h4⟩ := bind_out h3
        cases r with
        | error t => cases h4
        | ok resp =>
          simp only [createResult] at h4
          unfold afterCreate at h4
          simp only at h4
          split at h4
          · rename_i hcond
            obtain ⟨jid, hj, h5⟩ := bind_out h4
            unfold sendDocument at h5
            obtain ⟨m2, hm2, h6⟩ := bind_out h5
            have hj : getInteger (resp.jobAttrs.head?.getD []) (ascii "job-id") = .ok jid := hj
            refine fin _ _ m2 (doRequest env.reqId m env.createReply).events ?_ ?_ h6
            · unfold doRequest
              cases hb : encodeMsg env.reqId m with
              | ok bytes =>
                rw [lift_bind_ok, emit_bind]
                show document ([.post m bytes] ++ []) = []
                rfl
              | throws e => rfl
              | ub => rfl
              | hang => rfl
            · show (Act.bind _ _).events = _
              unfold Act.bind
              rw [hr]
              simp only [createResult]
              unfold afterCreate
              simp only
              rw [if_pos hcond, hj, lift_bind_ok]
              unfold sendDocument
              have hm2 : mkMsg p 0x0006 (KMap.assign (KMap.assign j'.opAttrs (ascii "job-id") (0x21, .int jid)) (ascii "last-document")
                (0x22, .bool true)) [] [] = .ok m2 := hm2
              rw [hm2, lift_bind_ok]
          · obtain ⟨_, _, h5⟩ := bind_out h4
            cases h5
      · rename_i hc
        rw [if_neg hc]
        unfold printJob at h2 ⊢
        obtain ⟨m, hm, h3⟩ := bind_out h2
        have hm : mkMsg p 0x0002 (KMap.assign j'.opAttrs (ascii "job-name") (0x42, .str fileName)) j'.jobAttrs [] = .ok m := hm
        rw [hm, lift_bind_ok]
        exact fin _ _ m [] rfl rfl h3

example : (runJob exampleEnv examplePrinter2 (PrintJob.new examplePrinter2.attrs []) pdf (ascii "a.pdf") 1).out = .ok none ∧
    document (runJob exampleEnv examplePrinter2 (PrintJob.new examplePrinter2.attrs []) pdf (ascii "a.pdf") 1).events = [1, 2, 3] := by
  decide +kernel

/-! ## C58: failed conversions -/

/-- The full C58: when the conversion fails, the end of the document is not signalled, so that the printer does not take what it has
received for the whole document. -/
def C58_full : Prop :=
  ∀ (env : Env) (p : Printer) (job : PrintJob) (input fileName : Bytes) (pages : Int) (t : Bytes),
    (runJob env p job input fileName pages).out = .ok (some (.convert t)) → .finish ∉ (runJob env p job input fileName pages).events

/-- An environment in which the conversion fails after the first block. -/
def failingEnv : Env := { exampleEnv with convert := fun _ _ => ([[1, 2]], .ok (some (ascii "disk full"))) }

/-- C58 is false of the code: when the conversion fails, the destructor of the streamer signals the end of the data, as for a
complete document. -/
theorem C58_failed_conversion_false : ¬ C58_full := by
  intro h
  exact h failingEnv examplePrinter2 (PrintJob.new examplePrinter2.attrs []) pdf (ascii "a.pdf") 1 (ascii "disk full")
    (by decide +kernel) (by decide +kernel)

/-- C58, what holds: a failed conversion is reported, not taken for success. Missing to the full C58: the document is ended all the same. -/
theorem C58_failure_reported_partial (env : Env) (p : Printer) (job : PrintJob) (input fileName : Bytes) (pages : Int) (hfile : ¬ IsFile p)
    (hfail : ∀ f j', (env.convert f j').2 ≠ .ok none) : (runJob env p job input fileName pages).out ≠ .ok none := by
  intro h
  obtain ⟨j', f, _, _, h3, _⟩ := C57_document env p job input fileName pages hfile h
  exact hfail f j' h3

/-- C58, also false: for a fake printer a failed conversion is not even reported. -/
theorem C58_file_false :
    (runJob failingEnv { examplePrinter2 with addr := ascii "file:///tmp/x" } (PrintJob.new examplePrinter2.attrs []) pdf (ascii "a.pdf") 1).out
      = .ok none := by
  decide +kernel

end Verif.Printer
