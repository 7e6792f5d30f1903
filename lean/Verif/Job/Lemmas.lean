import Verif.Job.Model
import Verif.Ipp.SettingProps

/-!
# What the steps of `finalize` change
-/

namespace Verif.Job

open Ipp

/-- The attributes agree at all names but some. -/
def SameBut (ks : List Bytes) (a a' : Attrs) : Prop := ∀ k, k ∉ ks → KMap.get? a' k = KMap.get? a k

theorem SameBut.refl (ks : List Bytes) (a : Attrs) : SameBut ks a a := fun _ _ => rfl

theorem SameBut.trans {ks : List Bytes} {a b c : Attrs} (h1 : SameBut ks a b) (h2 : SameBut ks b c) : SameBut ks a c :=
  fun k hk => (h2 k hk).trans (h1 k hk)

theorem SameBut.mono {ks ks' : List Bytes} {a b : Attrs} (h : SameBut ks a b) (hs : ∀ k ∈ ks, k ∈ ks') : SameBut ks' a b :=
  fun k hk => h k (fun hm => hk (hs k hm))

theorem sameBut_assign (a : Attrs) (k : Bytes) (x : Attr) : SameBut [k] a (KMap.assign a k x) := by
  intro k' hk
  rw [KMap.get?_assign_any, if_neg (by simpa using hk)]

theorem sameBut_erase (a : Attrs) (k : Bytes) : SameBut [k] a (KMap.erase a k) := by
  intro k' hk
  rw [KMap.get?_erase, if_neg (by simpa using hk)]

/-! ## Settings outside of collections -/

theorem set_top {s : Setting} (hs : s.subKey = []) (v : Value) (a : Attrs) :
    s.set v a = .ok (KMap.assign a s.name (s.tag, v)) := by simp [Setting.set, hs]

theorem unset_top {s : Setting} (hs : s.subKey = []) (a : Attrs) : s.unset a = .ok (KMap.erase a s.name) := by
  simp [Setting.unset, hs]

theorem isSet_top {s : Setting} (hs : s.subKey = []) (a : Attrs) : s.isSet a = .ok (KMap.get? a s.name).isSome := by
  simp [Setting.isSet, hs, KMap.has]

theorem get_top {s : Setting} (hs : s.subKey = []) (pa a : Attrs) (fb : Value) : s.get pa a fb =
    match KMap.get? a s.name with
    | some x => getAs s.ty x.2
    | none => Attrs.get pa s.ty (s.name ++ ascii "-default") fb := by
  unfold Setting.get
  rw [isSet_top hs, Outcome.bind_ok]
  cases h : KMap.get? a s.name with
  | none => simp [Setting.getIf, Setting.getDefault]
  | some x => simp [Setting.getIf, hs, Setting.getAt, h]

/-- A setting is read from its own name only. -/
theorem get_congr {s : Setting} (hs : s.subKey = []) (pa : Attrs) {a a' : Attrs} (fb : Value)
    (h : KMap.get? a' s.name = KMap.get? a s.name) : s.get pa a' fb = s.get pa a fb := by
  rw [get_top hs, get_top hs, h]

theorem getStr_congr {s : Setting} (hs : s.subKey = []) (pa : Attrs) {a a' : Attrs} (fb : Bytes)
    (h : KMap.get? a' s.name = KMap.get? a s.name) : getStr s pa a' fb = getStr s pa a fb := by
  unfold getStr; rw [get_congr hs pa _ h]

theorem getInt_congr {s : Setting} (hs : s.subKey = []) (pa : Attrs) {a a' : Attrs} (fb : Int)
    (h : KMap.get? a' s.name = KMap.get? a s.name) : getInt s pa a' fb = getInt s pa a fb := by
  unfold getInt; rw [get_congr hs pa _ h]

theorem getAs_ok {t : Ty} {v x : Value} (h : getAs t v = .ok x) : x = v ∧ v.ty = some t := by
  unfold getAs at h
  split at h
  · cases h; exact ⟨rfl, by assumption⟩
  · cases h

theorem strOf_ty {v : Value} (h : v.ty = some .str) : v = .str (strOf v) := by
  cases v <;> first | rfl | (simp [Value.ty] at h)

theorem intOf_ty {v : Value} (h : v.ty = some .int) : v = .int (intOf v) := by
  cases v <;> first | rfl | (simp [Value.ty] at h)

theorem getAll_ok' {t : Ty} {l l' : List Value} (h : getAll t l = .ok l') : l' = l ∧ ∀ v ∈ l, v.ty = some t := by
  induction l generalizing l' with
  | nil => cases h; simp
  | cons v l ih =>
    rw [getAll, Outcome.bind_eq_ok] at h
    obtain ⟨x, hx, h⟩ := h
    rw [Outcome.bind_eq_ok] at h
    obtain ⟨xs, hxs, h⟩ := h
    cases h
    obtain ⟨rfl, hv⟩ := getAs_ok hx
    obtain ⟨rfl, hl⟩ := ih hxs
    refine ⟨rfl, fun w hw => ?_⟩
    rcases List.mem_cons.mp hw with rfl | hw
    · exact hv
    · exact hl w hw

theorem mem_strList {a : Attrs} {name : Bytes} {l : List Bytes} (h : strList a name = .ok l) (x : Bytes) :
    x ∈ l ↔ Spec.Declares (KMap.get? a name) (.str x) := by
  unfold strList Attrs.getList at h
  rw [Outcome.bind_eq_ok] at h
  obtain ⟨vs, hvs, h⟩ := h
  cases h
  unfold Spec.Declares
  cases hg : KMap.get? a name with
  | none => rw [hg] at hvs; cases hvs; simp
  | some attr =>
    rw [hg] at hvs
    obtain ⟨rfl, hty⟩ := getAll_ok' hvs
    obtain ⟨tag, v⟩ := attr
    have key : ∀ l : List Value, (∀ v ∈ l, v.ty = some .str) → (x ∈ l.map strOf ↔ Value.str x ∈ l) := by
      intro l hl
      rw [List.mem_map]
      constructor
      · rintro ⟨v, hv, rfl⟩; rw [← strOf_ty (hl v hv)]; exact hv
      · intro hm; exact ⟨_, hm, rfl⟩
    rw [key _ hty]
    cases v <;> simp [asList]

/-! ## The steps -/

theorem setDocumentFormat_ok {j j' : PrintJob} (h : setDocumentFormat j = .ok j') :
    ∃ f, j' = { j with opAttrs := KMap.assign j.opAttrs (ascii "document-format") (0x49, .str f) } ∧
      ((f = j.targetFormat ∧ Spec.Declares (KMap.get? j.printerAttrs (ascii "document-format-supported")) (.str f)) ∨
       (f = octetStream ∧ ¬ Spec.Declares (KMap.get? j.printerAttrs (ascii "document-format-supported")) (.str j.targetFormat))) := by
  unfold setDocumentFormat at h
  rw [Outcome.bind_eq_ok] at h
  obtain ⟨l, hl, h⟩ := h
  rw [set_top rfl, Outcome.bind_ok] at h
  cases h
  have hm : ∀ x, x ∈ l ↔ Spec.Declares (KMap.get? j.printerAttrs (ascii "document-format-supported")) (.str x) :=
    fun x => mem_strList hl x
  refine ⟨_, rfl, ?_⟩
  by_cases hc : l.contains j.targetFormat
  · rw [if_pos hc]; exact .inl ⟨rfl, (hm _).mp (List.contains_iff_mem.mp hc)⟩
  · rw [if_neg hc]; exact .inr ⟨rfl, fun hx => hc (List.contains_iff_mem.mpr ((hm _).mpr hx))⟩

/-- What `setCompression` does. -/
theorem setCompression_ok {j j' : PrintJob} (h : setCompression j = .ok j') :
    ∃ op, j' = { j with opAttrs := op } ∧
      ((isPrinterRaster j.targetFormat = false ∧ op = j.opAttrs) ∨
       (isPrinterRaster j.targetFormat = true ∧ ∃ l, strList j.printerAttrs (ascii "compression-supported") = .ok l ∧
        ((ascii "gzip" ∈ l ∧ op = KMap.assign j.opAttrs (ascii "compression") (0x44, .str (ascii "gzip"))) ∨
         (ascii "gzip" ∉ l ∧ ascii "deflate" ∈ l ∧
            op = KMap.assign j.opAttrs (ascii "compression") (0x44, .str (ascii "deflate"))) ∨
         (ascii "gzip" ∉ l ∧ ascii "deflate" ∉ l ∧ op = j.opAttrs)))) := by
  unfold setCompression at h
  split at h
  · rename_i hr
    rw [Outcome.bind_eq_ok] at h
    obtain ⟨l, hl, h⟩ := h
    rw [Outcome.bind_eq_ok] at h
    obtain ⟨op, hop, h⟩ := h
    cases h
    refine ⟨op, rfl, .inr ⟨hr, l, hl, ?_⟩⟩
    unfold chooseCompression at hop
    split at hop
    · rename_i hc
      rw [set_top rfl] at hop; cases hop
      exact .inl ⟨List.contains_iff_mem.mp hc, rfl⟩
    · rename_i hc
      have hc : ascii "gzip" ∉ l := fun hm => hc (List.contains_iff_mem.mpr hm)
      split at hop
      · rename_i hd
        rw [set_top rfl] at hop; cases hop
        exact .inr (.inl ⟨hc, List.contains_iff_mem.mp hd, rfl⟩)
      · rename_i hd
        cases hop
        exact .inr (.inr ⟨hc, fun hm => hd (List.contains_iff_mem.mpr hm), rfl⟩)
  · rename_i hr
    cases h
    exact ⟨_, rfl, .inl ⟨by simpa using hr, rfl⟩⟩

theorem setPaper_ok {j j' : PrintJob} {b : Bool} (h : setPaper j = .ok (b, j')) :
    ∃ p, j' = { j with paper := p, params := { j.params with paperSizeName := p.name } } := by
  unfold setPaper at h
  rw [Outcome.bind_eq_ok] at h
  obtain ⟨n, hn, h⟩ := h
  rw [Outcome.bind_eq_ok] at h
  obtain ⟨ok, hok, h⟩ := h
  cases h
  exact ⟨_, rfl⟩

theorem unset_sub {s : Setting} (hs : s.subKey = ascii "media-col") {a a' : Attrs} (h : s.unset a = .ok a') :
    SameBut [ascii "media-col"] a a' := by
  unfold Setting.unset at h
  rw [if_pos (by rw [hs]; decide), Outcome.bind_eq_ok] at h
  obtain ⟨col, hcol, h⟩ := h
  cases h
  unfold Setting.putBack
  rw [hs]
  split
  · exact sameBut_erase _ _
  · exact sameBut_assign _ _ _

theorem takeMargins_ok {j j' : PrintJob} (h : takeMargins j = .ok j') :
    ∃ m a, j' = { j with margins := m, jobAttrs := a } ∧ SameBut [ascii "media-col"] j.jobAttrs a := by
  unfold takeMargins at h
  split at h
  · cases h; exact ⟨_, _, rfl, SameBut.refl _ _⟩
  · rw [Outcome.bind_eq_ok] at h; obtain ⟨_, _, h⟩ := h
    rw [Outcome.bind_eq_ok] at h; obtain ⟨_, _, h⟩ := h
    rw [Outcome.bind_eq_ok] at h; obtain ⟨_, _, h⟩ := h
    rw [Outcome.bind_eq_ok] at h; obtain ⟨_, _, h⟩ := h
    rw [Outcome.bind_eq_ok] at h; obtain ⟨_, h1, h⟩ := h
    rw [Outcome.bind_eq_ok] at h; obtain ⟨_, h2, h⟩ := h
    rw [Outcome.bind_eq_ok] at h; obtain ⟨_, h3, h⟩ := h
    rw [Outcome.bind_eq_ok] at h; obtain ⟨_, h4, h⟩ := h
    cases h
    exact ⟨_, _, rfl, (((unset_sub rfl h1).trans (unset_sub rfl h2)).trans (unset_sub rfl h3)).trans (unset_sub rfl h4)⟩

theorem addMediaSize_ok {j j' : PrintJob} (h : addMediaSize j = .ok j') :
    ∃ a, j' = { j with jobAttrs := a } ∧ SameBut [ascii "media-col", ascii "media"] j.jobAttrs a := by
  unfold addMediaSize at h
  rw [Outcome.bind_eq_ok] at h
  obtain ⟨b, _, h⟩ := h
  split at h
  · rw [Outcome.bind_eq_ok] at h; obtain ⟨x, _, h⟩ := h
    rw [Outcome.bind_eq_ok] at h; obtain ⟨y, _, h⟩ := h
    rw [Outcome.bind_eq_ok] at h; obtain ⟨m, _, h⟩ := h
    rw [unset_top rfl, Outcome.bind_ok] at h
    cases h
    exact ⟨_, rfl, ((sameBut_assign _ _ _).mono (by simp)).trans ((sameBut_erase _ _).mono (by simp [sMedia]))⟩
  · cases h; exact ⟨_, rfl, SameBut.refl _ _⟩

theorem takeResolution_ok {j j' : PrintJob} (h : takeResolution j = .ok j') :
    ∃ v, sResolution.get j.printerAttrs j.jobAttrs (.res (.ofNat j.params.hwResW) (.ofNat j.params.hwResH) 3) = .ok v ∧
      j' = { j with params := { j.params with hwResW := (resOf v).1, hwResH := (resOf v).2 } } := by
  unfold takeResolution at h
  rw [Outcome.bind_eq_ok] at h
  obtain ⟨v, hv, h⟩ := h
  cases h
  exact ⟨v, hv, rfl⟩

theorem takeRanges_ok {input : Bytes} {j j' : PrintJob} (h : takeRanges input j = .ok j') :
    (input ≠ pdf ∧ j' = j) ∨
    (input = pdf ∧ ∃ l, Attrs.getList j.jobAttrs .range (ascii "page-ranges") = .ok l ∧
      j' = { j with params := { j.params with pageRangeList := j.params.pageRangeList ++ l.map rangeOf },
                    jobAttrs := KMap.erase j.jobAttrs (ascii "page-ranges") }) := by
  unfold takeRanges at h
  split at h
  · rename_i hp
    rw [Outcome.bind_eq_ok] at h
    obtain ⟨l, hl, h⟩ := h
    rw [unset_top rfl, Outcome.bind_ok] at h
    cases h
    exact .inr ⟨hp, l, hl, rfl⟩
  · rename_i hp
    cases h; exact .inl ⟨hp, rfl⟩

theorem adjustResolution_ok {j j' : PrintJob} (h : adjustResolution j = .ok j') :
    ∃ w hh, j' = { j with params := { j.params with hwResW := w, hwResH := hh } } := by
  unfold adjustResolution at h
  split at h
  · rw [Outcome.bind_eq_ok] at h; obtain ⟨l, _, h⟩ := h
    rw [Outcome.bind_eq_ok] at h; obtain ⟨r, _, h⟩ := h
    cases h; exact ⟨_, _, rfl⟩
  · rw [Outcome.bind_eq_ok] at h; obtain ⟨l, _, h⟩ := h
    rw [Outcome.bind_eq_ok] at h; obtain ⟨r, _, h⟩ := h
    cases h; exact ⟨_, _, rfl⟩

theorem adjustBack_ok {j j' : PrintJob} (h : adjustBack j = .ok j') :
    ∃ b, j' = { j with params := { j.params with backXformMode := b } } := by
  unfold adjustBack at h
  split at h
  · rw [Outcome.bind_eq_ok] at h; obtain ⟨l, _, h⟩ := h
    cases h; exact ⟨_, rfl⟩
  · rw [Outcome.bind_eq_ok] at h; obtain ⟨l, _, h⟩ := h
    cases h; exact ⟨_, rfl⟩

theorem dropDuplex_ok {pages : Int} {j j' : PrintJob} {sides : Bytes} (h : dropDuplex pages j sides = .ok j') :
    j' = j ∨ (j' = { j with jobAttrs := KMap.assign j.jobAttrs (ascii "sides") (0x44, .str (ascii "one-sided")) }) := by
  unfold dropDuplex at h
  split at h
  · cases h; exact .inl rfl
  · rw [Outcome.bind_eq_ok] at h; obtain ⟨seq, _, h⟩ := h
    split at h
    · rw [set_top rfl, Outcome.bind_ok] at h; cases h; exact .inr rfl
    · cases h; exact .inl rfl

/-- The printer's support of copies as the code computes it. -/
theorem adjustCopies_ok {pages : Int} {j j' : PrintJob} (h : adjustCopies pages j = .ok j') :
    ∃ n b, getInt sCopies j.printerAttrs j.jobAttrs 1 = .ok n ∧ supportsCopies j.printerAttrs = .ok b ∧
      ((¬ (n > 1 ∧ b = false) ∧ j' = j) ∨
       (n > 1 ∧ b = false ∧ ∃ c a sides,
          getStr sSides j.printerAttrs (KMap.erase j.jobAttrs (ascii "copies")) [] = .ok sides ∧
          a = KMap.erase j.jobAttrs (ascii "copies") ∧
          dropDuplex pages { j with params := { j.params with copies := n.toNat, collatedCopies := c }, jobAttrs := a } sides = .ok j')) := by
  unfold adjustCopies at h
  rw [Outcome.bind_eq_ok] at h; obtain ⟨n, hn, h⟩ := h
  rw [Outcome.bind_eq_ok] at h; obtain ⟨b, hb, h⟩ := h
  refine ⟨n, b, hn, hb, ?_⟩
  split at h
  · rename_i hc
    refine .inr ⟨hc.1, by simpa using hc.2, ?_⟩
    unfold copyLocally at h
    rw [Outcome.bind_eq_ok] at h; obtain ⟨m, _, h⟩ := h
    rw [unset_top rfl, Outcome.bind_ok, Outcome.bind_eq_ok] at h
    obtain ⟨sides, hs, h⟩ := h
    exact ⟨_, _, sides, hs, rfl, h⟩
  · rename_i hc
    cases h
    exact .inl ⟨by simpa using hc, rfl⟩

theorem takeSides_ok {j j' : PrintJob} (h : takeSides j = .ok j') :
    ∃ s, getStr sSides j.printerAttrs j.jobAttrs [] = .ok s ∧
      j' = { j with params := { j.params with duplexMode := duplexOf s j.params.duplexMode } } := by
  unfold takeSides at h
  rw [Outcome.bind_eq_ok] at h; obtain ⟨s, hs, h⟩ := h
  cases h; exact ⟨s, hs, rfl⟩

theorem takeQuality_ok {j j' : PrintJob} (h : takeQuality j = .ok j') :
    ∃ q, getInt sPrintQuality j.printerAttrs j.jobAttrs 0 = .ok q ∧
      j' = { j with params := { j.params with quality := qualityOf q } } := by
  unfold takeQuality at h
  rw [Outcome.bind_eq_ok] at h; obtain ⟨s, hs, h⟩ := h
  cases h; exact ⟨s, hs, rfl⟩

theorem takeColorMode_ok {j j' : PrintJob} (h : takeColorMode j = .ok j') :
    ∃ l m, supportedStrs sColorMode j.printerAttrs = .ok l ∧ getStr sColorMode j.printerAttrs j.jobAttrs [] = .ok m ∧
      j' = { j with params := { j.params with colorMode := colorModeOf l m j.params.colorMode } } := by
  unfold takeColorMode at h
  rw [Outcome.bind_eq_ok] at h; obtain ⟨l, hl, h⟩ := h
  rw [Outcome.bind_eq_ok] at h; obtain ⟨s, hs, h⟩ := h
  cases h; exact ⟨l, s, hl, hs, rfl⟩

theorem takeMedia_ok {j j' : PrintJob} (h : takeMedia j = .ok j') :
    ∃ b p t, sMediaSource.isSet j.jobAttrs = .ok b ∧ newPosition j b = .ok p ∧ getStr sMediaType j.printerAttrs j.jobAttrs [] = .ok t ∧
      j' = { j with params := { j.params with mediaPosition := p, mediaType := t } } := by
  unfold takeMedia at h
  rw [Outcome.bind_eq_ok] at h; obtain ⟨b, hb, h⟩ := h
  rw [Outcome.bind_eq_ok] at h; obtain ⟨p, hp, h⟩ := h
  rw [Outcome.bind_eq_ok] at h; obtain ⟨t, ht, h⟩ := h
  cases h; exact ⟨b, p, t, hb, hp, ht, rfl⟩

/-- The jobs between the steps of `finalize`. -/
structure Run (pl : Pipelines) (input : Bytes) (pages : Int) (j j' : PrintJob) where
  target : Bytes
  j1 : PrintJob
  j2 : PrintJob
  j3 : PrintJob
  j4 : PrintJob
  j5 : PrintJob
  j6 : PrintJob
  j7 : PrintJob
  j8 : PrintJob
  j9 : PrintJob
  j10 : PrintJob
  j11 : PrintJob
  h0 : determineTargetFormat pl input j = .ok target
  h1 : setDocumentFormat { j with targetFormat := target } = .ok j1
  hne : j1.targetFormat ≠ [] ∧ j1.targetFormat ≠ octetStream
  h2 : setCompression j1 = .ok j2
  h3 : setPaper j2 = .ok (true, j3)
  h4 : takeMargins j3 = .ok j4
  h5 : addMediaSize j4 = .ok j5
  h6 : takeResolution (setFormat input j5) = .ok j6
  h7 : takeRanges input j6 = .ok j7
  h8 : adjustRaster pages j7 = .ok j8
  h9 : takeSides j8 = .ok j9
  h10 : takeQuality j9 = .ok j10
  h11 : takeColorMode j10 = .ok j11
  h12 : takeMedia j11 = .ok j'

theorem finalize_run {pl : Pipelines} {input : Bytes} {pages : Int} {j j' : PrintJob} (h : finalize pl input pages j = .ok (none, j')) :
    Nonempty (Run pl input pages j j') := by
  unfold finalize at h
  rw [Outcome.bind_eq_ok] at h; obtain ⟨target, h0, h⟩ := h
  rw [Outcome.bind_eq_ok] at h; obtain ⟨j1, h1, h⟩ := h
  split at h
  · cases h
  · rename_i hne
    rw [Outcome.bind_eq_ok] at h; obtain ⟨j2, h2, h⟩ := h
    unfold finalizePaper at h
    rw [Outcome.bind_eq_ok] at h; obtain ⟨⟨b, j3⟩, h3, h⟩ := h
    simp only at h
    split at h
    · rename_i hb
      subst hb
      rw [Outcome.bind_eq_ok] at h; obtain ⟨x, hx, h⟩ := h
      cases h
      unfold finalizeSteps at hx
      rw [Outcome.bind_eq_ok] at hx; obtain ⟨j4, h4, hx⟩ := hx
      rw [Outcome.bind_eq_ok] at hx; obtain ⟨j5, h5, hx⟩ := hx
      rw [Outcome.bind_eq_ok] at hx; obtain ⟨j6, h6, hx⟩ := hx
      rw [Outcome.bind_eq_ok] at hx; obtain ⟨j7, h7, hx⟩ := hx
      rw [Outcome.bind_eq_ok] at hx; obtain ⟨j8, h8, hx⟩ := hx
      rw [Outcome.bind_eq_ok] at hx; obtain ⟨j9, h9, hx⟩ := hx
      rw [Outcome.bind_eq_ok] at hx; obtain ⟨j10, h10, hx⟩ := hx
      rw [Outcome.bind_eq_ok] at hx; obtain ⟨j11, h11, hx⟩ := hx
      exact ⟨⟨target, j1, j2, j3, j4, j5, j6, j7, j8, j9, j10, j11, h0, h1, by simpa using hne, h2, h3, h4, h5, h6, h7, h8, h9, h10, h11, hx⟩⟩
    · cases h

theorem getList_congr {a a' : Attrs} {t : Ty} {name : Bytes} (h : KMap.get? a' name = KMap.get? a name) :
    Attrs.getList a' t name = Attrs.getList a t name := by
  unfold Attrs.getList; rw [h]

/-- The job when `adjustRaster` is reached. -/
structure Before (input : Bytes) (j j7 : PrintJob) (target : Bytes) (op : Attrs) : Prop where
  printerAttrs : j7.printerAttrs = j.printerAttrs
  targetFormat : j7.targetFormat = target
  opAttrs : j7.opAttrs = op
  jobAttrs : SameBut [ascii "media-col", ascii "media", ascii "page-ranges"] j.jobAttrs j7.jobAttrs
  format : j7.params.format = formatOf input target
  copies : j7.params.copies = j.params.copies
  collated : j7.params.collatedCopies = j.params.collatedCopies
  duplex : j7.params.duplexMode = j.params.duplexMode
  back : j7.params.backXformMode = j.params.backXformMode
  quality : j7.params.quality = j.params.quality
  colorMode : j7.params.colorMode = j.params.colorMode
  mediaPosition : j7.params.mediaPosition = j.params.mediaPosition
  oneStage : j7.oneStage = j.oneStage
  resolution : ∃ v, sResolution.get j.printerAttrs j.jobAttrs (.res (.ofNat j.params.hwResW) (.ofNat j.params.hwResH) 3) = .ok v ∧
    j7.params.hwResW = (resOf v).1 ∧ j7.params.hwResH = (resOf v).2
  ranges : (input ≠ pdf ∧ j7.params.pageRangeList = j.params.pageRangeList ∧
      KMap.get? j7.jobAttrs (ascii "page-ranges") = KMap.get? j.jobAttrs (ascii "page-ranges")) ∨
    (input = pdf ∧ KMap.get? j7.jobAttrs (ascii "page-ranges") = none ∧
      ∃ l, Attrs.getList j.jobAttrs .range (ascii "page-ranges") = .ok l ∧
        j7.params.pageRangeList = j.params.pageRangeList ++ l.map rangeOf)

theorem before_raster {pl : Pipelines} {input : Bytes} {pages : Int} {j j' : PrintJob} (r : Run pl input pages j j') :
    Before input j r.j7 r.target r.j2.opAttrs := by
  obtain ⟨target, j1, j2, j3, j4, j5, j6, j7, _, _, _, _, _, h1, _, h2, h3, h4, h5, h6, h7, _, _, _, _, _⟩ := r
  obtain ⟨f, rfl, _⟩ := setDocumentFormat_ok h1
  obtain ⟨op, rfl, _⟩ := setCompression_ok h2
  obtain ⟨p, rfl⟩ := setPaper_ok h3
  obtain ⟨m, a4, rfl, s4⟩ := takeMargins_ok h4
  obtain ⟨a5, rfl, s5⟩ := addMediaSize_ok h5
  obtain ⟨v, hv, rfl⟩ := takeResolution_ok h6
  have s : SameBut [ascii "media-col", ascii "media"] j.jobAttrs a5 := (s4.mono (by simp)).trans s5
  have hv' : sResolution.get j.printerAttrs j.jobAttrs (.res (.ofNat j.params.hwResW) (.ofNat j.params.hwResH) 3) = .ok v := by
    rw [← hv]
    exact (get_congr rfl _ _ (s (ascii "printer-resolution") (by decide))).symm
  have hpr := s (ascii "page-ranges") (by decide)
  rcases takeRanges_ok h7 with ⟨hi, rfl⟩ | ⟨hi, l, hl, rfl⟩
  · exact ⟨rfl, rfl, rfl, s.mono (by simp), rfl, rfl, rfl, rfl, rfl, rfl, rfl, rfl, rfl, ⟨v, hv', rfl, rfl⟩, .inl ⟨hi, rfl, hpr⟩⟩
  · refine ⟨rfl, rfl, rfl, (s.mono (by simp)).trans ((sameBut_erase _ _).mono (by simp)), rfl, rfl, rfl, rfl, rfl, rfl, rfl, rfl, rfl,
      ⟨v, hv', rfl, rfl⟩, .inr ⟨hi, ?_, l, ?_, rfl⟩⟩
    · exact (KMap.get?_erase _ _ _).trans (if_pos rfl)
    · rw [← hl]; exact (getList_congr hpr).symm

/-- From `adjustRaster` to the end. -/
theorem after_raster {pl : Pipelines} {input : Bytes} {pages : Int} {j j' : PrintJob} (r : Run pl input pages j j') :
    ∃ s q l m mp mt, getStr sSides r.j8.printerAttrs r.j8.jobAttrs [] = .ok s ∧
      getInt sPrintQuality r.j8.printerAttrs r.j8.jobAttrs 0 = .ok q ∧
      supportedStrs sColorMode r.j8.printerAttrs = .ok l ∧
      getStr sColorMode r.j8.printerAttrs r.j8.jobAttrs [] = .ok m ∧
      (∃ b, sMediaSource.isSet r.j8.jobAttrs = .ok b ∧
        (if b then (∃ src, getStr sMediaSource r.j8.printerAttrs r.j8.jobAttrs [] = .ok src ∧ mediaPosition src = .ok mp)
         else mp = r.j8.params.mediaPosition)) ∧
      getStr sMediaType r.j8.printerAttrs r.j8.jobAttrs [] = .ok mt ∧
      j' = { r.j8 with params := { r.j8.params with duplexMode := duplexOf s r.j8.params.duplexMode, quality := qualityOf q,
                                                    colorMode := colorModeOf l m r.j8.params.colorMode, mediaPosition := mp,
                                                    mediaType := mt } } := by
  obtain ⟨s, hs, e9⟩ := takeSides_ok r.h9
  obtain ⟨q, hq, e10⟩ := takeQuality_ok r.h10
  obtain ⟨l, m, hl, hm, e11⟩ := takeColorMode_ok r.h11
  obtain ⟨b, mp, mt, hb, hmp, hmt, e12⟩ := takeMedia_ok r.h12
  rw [e9] at hq e10
  rw [e10] at hl hm e11
  rw [e11] at hb hmp hmt e12
  refine ⟨s, q, l, m, mp, mt, hs, hq, hl, hm, ⟨b, hb, ?_⟩, hmt, e12⟩
  unfold newPosition at hmp
  split at hmp
  · rename_i hbt
    rw [if_pos hbt]
    rw [Outcome.bind_eq_ok] at hmp
    exact hmp
  · rename_i hbf
    rw [if_neg hbf]
    cases hmp; rfl

/-- The job at the end, compared to that after `adjustRaster`. -/
structure After (j8 j' : PrintJob) : Prop where
  printerAttrs : j'.printerAttrs = j8.printerAttrs
  targetFormat : j'.targetFormat = j8.targetFormat
  opAttrs : j'.opAttrs = j8.opAttrs
  jobAttrs : j'.jobAttrs = j8.jobAttrs
  format : j'.params.format = j8.params.format
  copies : j'.params.copies = j8.params.copies
  collated : j'.params.collatedCopies = j8.params.collatedCopies
  back : j'.params.backXformMode = j8.params.backXformMode
  hwResW : j'.params.hwResW = j8.params.hwResW
  hwResH : j'.params.hwResH = j8.params.hwResH
  ranges : j'.params.pageRangeList = j8.params.pageRangeList
  oneStage : j'.oneStage = j8.oneStage
  duplex : ∃ s, getStr sSides j8.printerAttrs j8.jobAttrs [] = .ok s ∧ j'.params.duplexMode = duplexOf s j8.params.duplexMode

theorem after_frame {pl : Pipelines} {input : Bytes} {pages : Int} {j j' : PrintJob} (r : Run pl input pages j j') :
    After r.j8 j' := by
  obtain ⟨s, q, l, m, mp, mt, hs, _, _, _, _, _, e⟩ := after_raster r
  generalize r.j8 = j8 at *
  subst e
  exact ⟨rfl, rfl, rfl, rfl, rfl, rfl, rfl, rfl, rfl, rfl, rfl, rfl, s, hs, rfl⟩

/-- A job with another resolution and back side, and without the resolution attribute. -/
def withRaster (j : PrintJob) (w h : Nat) (b : BackXform) : PrintJob :=
  let p := { j.params with hwResW := w, hwResH := h, backXformMode := b }
  { j with jobAttrs := KMap.erase j.jobAttrs (ascii "printer-resolution"), params := p }

/-- What `adjustRaster` does. -/
theorem adjustRaster_ok {pages : Int} {j j' : PrintJob} (h : adjustRaster pages j = .ok j') :
    (¬ (j.params.format = .PWG ∨ j.params.format = .URF) ∧ j' = j) ∨
    ((j.params.format = .PWG ∨ j.params.format = .URF) ∧ ∃ w hh b,
      adjustResolution (withRaster j j.params.hwResW j.params.hwResH j.params.backXformMode) =
        .ok (withRaster j w hh j.params.backXformMode) ∧
      adjustBack (withRaster j w hh j.params.backXformMode) = .ok (withRaster j w hh b) ∧
      adjustCopies pages (withRaster j w hh b) = .ok j') := by
  unfold adjustRaster at h
  split at h
  · rename_i hf
    rw [unset_top rfl, Outcome.bind_ok, Outcome.bind_eq_ok] at h
    obtain ⟨ja, ha, h⟩ := h
    rw [Outcome.bind_eq_ok] at h
    obtain ⟨jb, hb, h⟩ := h
    obtain ⟨w, hh, ea⟩ := adjustResolution_ok ha
    subst ea
    obtain ⟨b, eb⟩ := adjustBack_ok hb
    subst eb
    exact .inr ⟨hf, w, hh, b, ha, hb, h⟩
  · rename_i hf
    cases h; exact .inl ⟨hf, rfl⟩

/-- What `adjustRaster` leaves alone, whatever it does. -/
structure RasterFrame (j j' : PrintJob) : Prop where
  printerAttrs : j'.printerAttrs = j.printerAttrs
  targetFormat : j'.targetFormat = j.targetFormat
  opAttrs : j'.opAttrs = j.opAttrs
  jobAttrs : SameBut [ascii "printer-resolution", ascii "copies", ascii "sides"] j.jobAttrs j'.jobAttrs
  format : j'.params.format = j.params.format
  duplex : j'.params.duplexMode = j.params.duplexMode
  quality : j'.params.quality = j.params.quality
  colorMode : j'.params.colorMode = j.params.colorMode
  mediaPosition : j'.params.mediaPosition = j.params.mediaPosition
  ranges : j'.params.pageRangeList = j.params.pageRangeList
  oneStage : j'.oneStage = j.oneStage

theorem adjustRaster_frame {pages : Int} {j j' : PrintJob} (h : adjustRaster pages j = .ok j') : RasterFrame j j' := by
  rcases adjustRaster_ok h with ⟨_, rfl⟩ | ⟨_, w, hh, b, _, _, hc⟩
  · exact ⟨rfl, rfl, rfl, SameBut.refl _ _, rfl, rfl, rfl, rfl, rfl, rfl, rfl⟩
  · obtain ⟨n, bb, _, _, ⟨_, rfl⟩ | ⟨_, _, c, a, sides, _, rfl, hd⟩⟩ := adjustCopies_ok hc
    · exact ⟨rfl, rfl, rfl, (sameBut_erase _ _).mono (by simp), rfl, rfl, rfl, rfl, rfl, rfl, rfl⟩
    · have s : SameBut [ascii "printer-resolution", ascii "copies", ascii "sides"] j.jobAttrs
          (KMap.erase (KMap.erase j.jobAttrs (ascii "printer-resolution")) (ascii "copies")) :=
        ((sameBut_erase _ _).mono (by simp)).trans ((sameBut_erase _ _).mono (by simp))
      rcases dropDuplex_ok hd with rfl | rfl
      · exact ⟨rfl, rfl, rfl, s, rfl, rfl, rfl, rfl, rfl, rfl, rfl⟩
      · exact ⟨rfl, rfl, rfl, s.trans ((sameBut_assign _ _ _).mono (by simp)), rfl, rfl, rfl, rfl, rfl, rfl, rfl⟩

end Verif.Job
