import Verif.Raster.Offsets

/-! # Helper lemmas: the URF header -/

namespace Verif.Raster

open Spec

theorem urfMediaTypes_eq : urfMediaTypes = urfMedia.map (fun x => (ascii x.1, x.2)) := by decide

theorem lookup_mem {l : List (Bytes × Nat)} {t : Bytes} {n : Nat} (h : l.lookup t = some n) : (t, n) ∈ l := by
  induction l with
  | nil => simp at h
  | cons x xs ih =>
    obtain ⟨k, v⟩ := x
    rw [List.lookup_cons] at h
    split at h
    · rename_i hk
      simp only [beq_iff_eq] at hk
      simp only [Option.some.injEq] at h
      subst hk; subst h; simp
    · exact List.mem_cons_of_mem _ (ih h)

theorem urfMediaTypes_mem : ∀ x ∈ urfMediaTypes, urfMediaTypes.lookup x.1 = some x.2 ∧ x.1 ≠ [] := by decide

theorem urfMediaType_iff (t : Bytes) (n : Nat) : urfMediaType t = .ok n ↔ urfMediaNumber t n := by
  unfold urfMediaType urfMediaNumber
  constructor
  · intro h
    split at h
    · rename_i ht
      cases h
      exact Or.inl ⟨ht, rfl⟩
    · split at h
      · rename_i m hm
        cases h
        have := lookup_mem hm
        rw [urfMediaTypes_eq] at this
        simp only [List.mem_map, Prod.mk.injEq] at this
        obtain ⟨⟨s, k⟩, h1, h2, h3⟩ := this
        simp only at h2 h3
        subst h3
        exact Or.inr ⟨s, h1, h2.symm⟩
      · cases h
  · rintro (⟨rfl, rfl⟩ | ⟨s, h1, rfl⟩)
    · simp
    · have hm : (ascii s, n) ∈ urfMediaTypes := by
        rw [urfMediaTypes_eq]
        exact List.mem_map.mpr ⟨(s, n), h1, rfl⟩
      have := urfMediaTypes_mem _ hm
      rw [if_neg this.2, this.1]

theorem urfMediaNumber_lt {t : Bytes} {n : Nat} (h : urfMediaNumber t n) : n < 14 := by
  rcases h with ⟨_, rfl⟩ | ⟨s, h, _⟩
  · omega
  · have : ∀ x ∈ urfMedia, x.2 < 14 := by decide
    exact this _ h

theorem urfColorSpace_iff (m : ColorMode) (n : Nat) : urfColorSpace m = .ok n ↔ urfColorNumber m n := by
  unfold urfColorSpace urfColorNumber
  cases m <;> simp <;> omega

theorem urfColorNumber_lt {m : ColorMode} {n : Nat} (h : urfColorNumber m n) : n < 7 := by
  unfold urfColorNumber at h; omega

theorem makeUrfHdr_ok (p : Params) (h : UrfAble p) : ∃ hd cs mt, makeUrfHdr p = .ok hd ∧
    urfColorNumber p.colorMode cs ∧ urfMediaNumber p.mediaType mt ∧
    hd = { BitsPerPixel := Spec.bitsPerPixel p.colorMode, ColorSpace := cs
           Duplex := match p.duplexMode with | .OneSided => 1 | .TwoSidedShortEdge => 2 | .TwoSidedLongEdge => 3
           Quality := p.quality.toNat
           MediaType := mt, MediaPosition := p.mediaPosition
           Width := p.widthPx, Height := p.heightPx, HWRes := p.hwResW } := by
  obtain ⟨h1, ⟨cs, hcs⟩, ⟨mt, hmt⟩⟩ := h
  refine ⟨_, cs, mt, ?_, hcs, hmt, rfl⟩
  unfold makeUrfHdr
  rw [if_neg (by simpa using h1), (urfColorSpace_iff _ _).mpr hcs, Outcome.bind_ok,
    (urfMediaType_iff _ _).mpr hmt, Outcome.bind_ok, Outcome.pure_eq, bpp_eq]
  congr 2
  unfold urfDuplex
  cases p.duplexMode <;> rfl

theorem makeUrfHdr_throws (p : Params) (h : ¬ UrfAble p) : ∃ e, makeUrfHdr p = .throws e := by
  unfold makeUrfHdr
  split
  · exact ⟨_, rfl⟩
  · rename_i h1
    rcases hcs : urfColorSpace p.colorMode with cs | e | _ | _
    · rcases hmt : urfMediaType p.mediaType with mt | e | _ | _
      · exfalso; apply h
        exact ⟨by simpa using h1, ⟨cs, (urfColorSpace_iff _ _).mp hcs⟩, ⟨mt, (urfMediaType_iff _ _).mp hmt⟩⟩
      · exact ⟨e, rfl⟩
      all_goals (exfalso; revert hmt; unfold urfMediaType; split; · simp
                 · split <;> simp)
    · exact ⟨e, rfl⟩
    all_goals (exfalso; revert hcs; unfold urfColorSpace; cases p.colorMode <;> simp)

theorem UrfHdr.fits_of (p : Params) (hf : Spec.Fits p) (h : UrfAble p) (hd : UrfHdr)
    (hh : makeUrfHdr p = .ok hd) : hd.Fits := by
  obtain ⟨h', cs, mt, h1, h2, h3, h4⟩ := makeUrfHdr_ok p h
  rw [h1] at hh
  cases hh
  subst h4
  have := urfColorNumber_lt h2
  have := urfMediaNumber_lt h3
  have := hf.position
  constructor <;> dsimp only
  case BitsPerPixel => cases p.colorMode <;> decide
  case Duplex => cases p.duplexMode <;> decide
  case Quality => cases p.quality <;> decide
  case Width => exact hf.width
  case Height => exact hf.height
  case HWRes => exact hf.resW
  all_goals omega

theorem urfHeaderAt (p : Params) (hf : Spec.Fits p) (h : UrfAble p) (hd : UrfHdr)
    (hh : makeUrfHdr p = .ok hd) (rest : Bytes) : UrfHeaderAt (hd.encode ++ rest) p := by
  have hfit := UrfHdr.fits_of p hf h hd hh
  obtain ⟨h', cs, mt, h1, h2, h3, h4⟩ := makeUrfHdr_ok p h
  rw [h1] at hh
  cases hh
  constructor
  case others =>
    simp only [UrfHdr.encode, List.append_assoc]
    constructor
    all_goals
      simp only [ZerosAt_padding, ZerosAt_be32, ZerosAt_be8, Nat.reduceLeDiff, Nat.reduceSub]
      refine ZerosAt_pad _ _ _ (by omega) ?_
      refine ZerosAt_pad _ _ _ (by omega) ?_
      exact ZerosAt_none _
  all_goals
    simp only [UrfHdr.encode, List.append_assoc]
    try simp only [u32At_padding, u32At_be8_skip, u32At_be32_skip, u8At_be8_skip, Nat.reduceLeDiff, Nat.reduceSub]
  case bitsPerPixel => rw [u8At_be8 _ _ hfit.BitsPerPixel, h4]
  case colorSpace => rw [u8At_be8 _ _ hfit.ColorSpace, h4]; exact h2
  case duplex => rw [u8At_be8 _ _ hfit.Duplex, h4]; cases p.duplexMode <;> rfl
  case quality =>
    rw [u8At_be8 _ _ hfit.Quality, h4]
    simp only [Quality.toNat]
    cases p.quality <;> rfl
  case mediaType => rw [u8At_be8 _ _ hfit.MediaType, h4]; exact h3
  case mediaPosition => rw [u8At_be8 _ _ hfit.MediaPosition, h4]
  case width => rw [u32At_be32 _ _ hfit.Width, h4]
  case height => rw [u32At_be32 _ _ hfit.Height, h4]
  case resolution => rw [u32At_be32 _ _ hfit.HWRes, h4]; exact ⟨rfl, h.1⟩

/-- Everything about one page at once. -/
theorem bmpToPwg_spec (p : Params) (page : Nat) (bmp : Bytes) (hf : Spec.Fits p)
    (hu : p.format = .URF → UrfAble p)
    (hlen : p.heightPx * rowBytes p.colorMode p.widthPx ≤ bmp.length) :
    ∃ hdr body out, bmpToPwg p page bmp = .ok (hdr ++ body) ∧
      (p.format ≠ .URF → ∃ h, makePwgHdr p (isBackside p page) = .ok h ∧ hdr = h.encode ∧ hdr.length = 1796 ∧
        PwgHeaderAt hdr p page) ∧
      (p.format = .URF → ∃ h, makeUrfHdr p = .ok h ∧ hdr = h.encode ∧ hdr.length = 32 ∧ UrfHeaderAt hdr p) ∧
      (∀ (urf : Bool) (rest : Bytes),
        rasterToBmp (body ++ rest) (rowBytes p.colorMode p.widthPx) p.heightPx (unit p.colorMode) urf =
          .ok (out, rest)) ∧
      out.length = p.heightPx * rowBytes p.colorMode p.widthPx ∧
      (¬ (IsBack p.duplexMode page ∧ (mirrorH p.duplexMode p.backXformMode ∨ mirrorV p.duplexMode p.backXformMode)) →
        out = bmp.take (p.heightPx * rowBytes p.colorMode p.widthPx)) ∧
      ((IsBack p.duplexMode page → mirrorH p.duplexMode p.backXformMode = true →
          8 ∣ p.widthPx * bitsPerPixel p.colorMode) →
        Transformed p.widthPx p.heightPx (rowBytes p.colorMode p.widthPx) (bitsPerPixel p.colorMode)
          (decide (IsBack p.duplexMode page) && mirrorH p.duplexMode p.backXformMode)
          (decide (IsBack p.duplexMode page) && mirrorV p.duplexMode p.backXformMode) bmp out) := by
  obtain ⟨body, out, hb, hd, hl, hid, htr⟩ := page_core p bmp
    (decide (IsBack p.duplexMode page) && mirrorH p.duplexMode p.backXformMode)
    (decide (IsBack p.duplexMode page) && mirrorV p.duplexMode p.backXformMode)
    (by have := hf.height; omega) hlen
  have hid' : ¬ (IsBack p.duplexMode page ∧
        (mirrorH p.duplexMode p.backXformMode ∨ mirrorV p.duplexMode p.backXformMode)) →
        out = bmp.take (p.heightPx * rowBytes p.colorMode p.widthPx) := by
    intro h
    apply hid
    · by_cases hb : IsBack p.duplexMode page
      · cases hm : mirrorH p.duplexMode p.backXformMode
        · simp
        · exact absurd ⟨hb, Or.inl hm⟩ h
      · simp [hb]
    · by_cases hb : IsBack p.duplexMode page
      · cases hm : mirrorV p.duplexMode p.backXformMode
        · simp
        · exact absurd ⟨hb, Or.inr hm⟩ h
      · simp [hb]
  have htr' : (IsBack p.duplexMode page → mirrorH p.duplexMode p.backXformMode = true →
          8 ∣ p.widthPx * bitsPerPixel p.colorMode) →
        Transformed p.widthPx p.heightPx (rowBytes p.colorMode p.widthPx) (bitsPerPixel p.colorMode)
          (decide (IsBack p.duplexMode page) && mirrorH p.duplexMode p.backXformMode)
          (decide (IsBack p.duplexMode page) && mirrorV p.duplexMode p.backXformMode) bmp out := by
    intro h
    apply htr
    intro hm
    simp only [Bool.and_eq_true, decide_eq_true_eq] at hm
    exact h hm.1 hm.2
  have hmain : ∀ hdr, pageHdr p (isBackside p page) = .ok hdr →
      bmpToPwg p page bmp = .ok (hdr ++ body) := by
    intro hdr h
    unfold bmpToPwg
    simp only [h, Outcome.bind_ok, widthBytes_eq]
    rw [if_neg (by omega), backHFlip_eq, backVFlip_eq, isBackside_eq, oneChunk_eq, hb]
    rfl
  by_cases hfm : p.format = .URF
  · obtain ⟨h', cs, mt, h1, h2, h3, h4⟩ := makeUrfHdr_ok p (hu hfm)
    refine ⟨h'.encode, body, out, hmain _ ?_, fun h => absurd hfm h, fun _ => ⟨h', h1, rfl, UrfHdr.encode_length _, ?_⟩,
      hd, hl, hid', htr'⟩
    · rw [pageHdr, if_neg (by simpa using hfm), h1]; rfl
    · have := urfHeaderAt p hf (hu hfm) h' h1 []
      simpa using this
  · obtain ⟨h', h1, h2⟩ := makePwgHdr_ok p (isBackside p page)
    refine ⟨h'.encode, body, out, hmain _ ?_, fun _ => ⟨h', h1, rfl, ?_, ?_⟩, fun h => absurd h hfm,
      hd, hl, hid', htr'⟩
    · rw [pageHdr, if_pos hfm, h1]; rfl
    · exact PwgHdr.encode_length _ (PwgHdr.fits_of p _ hf h' h1)
    · have := pwgHeaderAt p page hf h' h1 []
      simpa using this

end Verif.Raster
