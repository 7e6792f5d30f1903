import Verif.Raster.Stream
import Verif.Raster.StreamProps

/-!
# PWG raster and URF documents by the standard: C99

What a PWG raster document (PWG 5102.4) and a URF document consist of, byte by byte, without reference to any reader; in particular without reference to
pwg2ppm, which does not read 16 bits per color in PWG and misreads fill codes. What the page encoder writes is such a document and shows the pages it was given.
-/

namespace Verif.Raster

namespace Spec

/-- The pages of a PWG raster document: for each the 1796 bytes of the header, and the bytes of the rows that the codes stand for. The header says how many bits a
pixel has (offset 388; the codes are in units of whole bytes), how many bytes a row (392) and how many rows there are (376). -/
inductive PwgPages : List (Bytes × Bytes) → Bytes → Prop where
  | none : PwgPages [] []
  | page (hdr code more : Bytes) (n : Nat) (rows : List (List Bytes)) (xs : List (Bytes × Bytes)) :
      hdr.length = 1796 → u32At hdr 392 = n * ((u32At hdr 388 + 7) / 8) → 0 < u32At hdr 388 →
      PageCode ((u32At hdr 388 + 7) / 8) false n (u32At hdr 376) code rows → PwgPages xs more →
      PwgPages ((hdr, (rows.map List.flatten).flatten) :: xs) (hdr ++ (code ++ more))

/-- A PWG raster file: the word "RaS2" and the pages. -/
def PwgFile (xs : List (Bytes × Bytes)) (file : Bytes) : Prop :=
  ∃ body, file = [0x52, 0x61, 0x53, 0x32] ++ body ∧ PwgPages xs body

/-- The pages of a URF document: for each the 32 bytes of the header, and the bytes of the rows that the codes stand for. The header says how many bits a pixel
has (offset 0), how many pixels a row (12) and how many rows there are (16). Here code 128 stands for white up to the end of the row. -/
inductive UrfPages : List (Bytes × Bytes) → Bytes → Prop where
  | none : UrfPages [] []
  | page (hdr code more : Bytes) (rows : List (List Bytes)) (xs : List (Bytes × Bytes)) :
      hdr.length = 32 →
      PageCode ((u8At hdr 0 + 7) / 8) true (u32At hdr 12) (u32At hdr 16) code rows → UrfPages xs more →
      UrfPages ((hdr, (rows.map List.flatten).flatten) :: xs) (hdr ++ (code ++ more))

/-- A URF file: the word "UNIRAST", a zero, the number of pages and the pages. -/
def UrfFile (count : Nat) (xs : List (Bytes × Bytes)) (file : Bytes) : Prop :=
  ∃ n body, file = [0x55, 0x4e, 0x49, 0x52, 0x41, 0x53, 0x54, 0] ++ (n ++ body) ∧ n.length = 4 ∧ u32At n 0 = count ∧ UrfPages xs body

/-- The page in the file (header and bytes of the rows) is the page with these parameters, number and bitmap. -/
def IsPwgPage (x : Params × Nat × Bytes) (s : Bytes × Bytes) : Prop :=
  PwgHeaderAt s.1 x.1 x.2.1 ∧ Pixels x.1 x.2.1 x.2.2 s.2

/-- The same for URF. -/
def IsUrfPage (x : Params × Nat × Bytes) (s : Bytes × Bytes) : Prop :=
  UrfHeaderAt s.1 x.1 ∧ Pixels x.1 x.2.1 x.2.2 s.2

/-- The file is a PWG raster document with exactly these pages. -/
def PwgDocument (pages : List (Params × Nat × Bytes)) (file : Bytes) : Prop :=
  ∃ shown, PwgFile shown file ∧ All2 IsPwgPage pages shown

/-- The file is a URF document with exactly these pages, and says that there are `count`. -/
def UrfDocument (count : Nat) (pages : List (Params × Nat × Bytes)) (file : Bytes) : Prop :=
  ∃ shown, UrfFile count shown file ∧ All2 IsUrfPage pages shown

end Spec

open Spec

/-! ## What the encoder writes are well-formed codes -/

theorem rowCode_fill {c : Nat} {n : Nat} {code : Bytes} {pxs : List Bytes} (h : RowCode c false n code pxs) :
    RowCode c true n code pxs := by
  induction h with
  | done => exact .done
  | repeated k n hk px code pxs hp _ ih => exact .repeated k n hk px code pxs hp ih
  | literal n lit pxs code h1 h2 hp _ ih => exact .literal n lit pxs code h1 h2 hp ih
  | fill n hn hf => cases hf

theorem pageCode_fill {c n : Nat} {h : Nat} {code : Bytes} {rows : List (List Bytes)} (hp : PageCode c false n h code rows) :
    PageCode c true n h code rows := by
  induction hp with
  | done => exact .done
  | rows k h hk row code pxs rows hr _ ih => exact .rows k h hk row code pxs rows (rowCode_fill hr) ih

theorem rowCode_compressChunks (c : Nat) (cs : List Bytes) (h : ∀ x ∈ cs, x.length = c) :
    RowCode c false cs.length (compressChunks cs) cs := by
  fun_induction compressChunks cs with
  | case1 => exact .done
  | case2 cur rst hc r ih =>
    obtain ⟨m, h1, h2, h3⟩ := scanRepeat_spec cur rst 0 (by omega)
    change r.1 = _ at h1
    change rst = _ ++ r.2 at h2
    have hr : ∀ x ∈ r.2, x.length = c := by
      intro x hx
      apply h x
      rw [h2]
      simp [hx]
    have h4 := RowCode.repeated r.1 r.2.length (by omega) cur _ r.2 (h cur (by simp)) (ih hr)
    have h5 : r.1 = m := by omega
    have e1 : cur :: rst = List.replicate (r.1 + 1) cur ++ r.2 := by
      conv => lhs; rw [h2]
      rw [h5, List.replicate_succ, List.cons_append]
    rw [e1]
    have e2 : (List.replicate (r.1 + 1) cur ++ r.2).length = r.1 + 1 + r.2.length := by simp
    rw [e2]
    exact h4
  | case3 cur rst hc v hv ih =>
    have h4 := RowCode.repeated (c := c) (fill := false) 0 rst.length (by omega) cur _ rst (h cur (by simp))
      (ih (fun x hx => h x (by simp [hx])))
    have e : (cur :: rst).length = 0 + 1 + rst.length := by simp; omega
    rw [e]
    exact h4
  | case4 cur rst hc v hv ih =>
    obtain ⟨h1, h2, h3, -⟩ := verbatimCount_spec rst (fun h => hc (Or.inl h))
    have hvl : ((cur :: rst).take v).length = v := by simp [v]; omega
    have h4 := RowCode.literal (c := c) (fill := false) _ ((cur :: rst).take v) ((cur :: rst).drop v) _ (by omega) (by omega)
      (fun x hx => h x (List.mem_of_mem_take hx)) (ih (fun x hx => h x (List.mem_of_mem_drop hx)))
    rw [List.take_append_drop, ← List.length_append, List.take_append_drop, hvl] at h4
    exact h4

theorem encodeRows_pageCode (bpc c : Nat) (hc : 0 < c) (hflip : Bool) (f : Bytes → Bytes) (w : Nat) (rows : List Bytes)
    (hf : ∀ r ∈ rows, lineData bpc c hflip r = .ok (f r) ∧ (f r).length = w * c) :
    ∃ enc pxs, encodeRows bpc c hflip rows = .ok enc ∧ PageCode c false w rows.length enc pxs := by
  fun_induction encodeRows bpc c hflip rows with
  | case1 => exact ⟨[], [], rfl, .done⟩
  | case2 this rest r ih =>
    obtain ⟨m, h1, h2, h3⟩ := scanRows_spec this rest 0 (by omega)
    change r.1 = _ at h1
    change rest = _ ++ r.2 at h2
    have hl : rest.length = m + r.2.length := by rw [h2]; simp
    obtain ⟨hft, hfl⟩ := hf this (by simp)
    obtain ⟨more, mpx, hm1, hm2⟩ := ih (fun x hx => hf x (by rw [h2]; simp [hx]))
    obtain ⟨cs, hc1, hc2, hc3⟩ := exists_chunks c w (f this) hfl
    have hcomp : compressLine c (f this) = .ok (compressChunks cs) := by
      rw [compressLine, ← hc1, chunksOf_flatten c hc cs hc3]; rfl
    have hrow := rowCode_compressChunks c cs hc3
    rw [hc2] at hrow
    refine ⟨UInt8.ofNat r.1 :: (compressChunks cs ++ more), List.replicate (r.1 + 1) cs ++ mpx, ?_, ?_⟩
    · simp only [hft, hcomp, hm1, Outcome.bind_ok]; rfl
    · have e : (this :: rest).length = r.1 + 1 + r.2.length := by simp; omega
      rw [e]
      exact .rows r.1 _ (by omega) _ more cs mpx hrow hm2

/-- One page: header and well-formed codes, which stand for the pixels. -/
theorem bmpToPwg_code (p : Params) (page : Nat) (bmp : Bytes) (hf : Spec.Fits p) (hu : p.format = .URF → UrfAble p)
    (hlen : bmp.length = p.heightPx * rowBytes p.colorMode p.widthPx) :
    ∃ hdr body n rows, bmpToPwg p page bmp = .ok (hdr ++ body) ∧
      (p.format ≠ .URF → hdr.length = 1796 ∧ PwgHeaderAt hdr p page) ∧
      (p.format = .URF → hdr.length = 32 ∧ UrfHeaderAt hdr p) ∧
      rowBytes p.colorMode p.widthPx = n * unit p.colorMode ∧
      PageCode (unit p.colorMode) false n p.heightPx body rows ∧
      Pixels p page bmp (rows.map List.flatten).flatten := by
  obtain ⟨hdr, body, out, h1, h2, h3, h4, h5, h6, h7⟩ := bmpToPwg_spec p page bmp hf hu (by omega)
  obtain ⟨n, hn⟩ := rowBytes_units p.colorMode p.widthPx
  -- the body is what `encodeRows` makes of the rows
  have hbody : ∃ rows, PageCode (unit p.colorMode) false n p.heightPx body rows := by
    obtain ⟨mv, hmv⟩ : ∃ mv, mv = (isBackside p page && p.backVFlip) := ⟨_, rfl⟩
    obtain ⟨mh, hmh⟩ : ∃ mh, mh = (isBackside p page && p.backHFlip) := ⟨_, rfl⟩
    have hrl : ∀ r ∈ rowsOf bmp p.heightPx (rowBytes p.colorMode p.widthPx) mv, r.length = rowBytes p.colorMode p.widthPx :=
      fun r hr => rowsOf_mem hr (by omega)
    obtain ⟨enc, pxs, e1, e2⟩ := encodeRows_pageCode p.bitsPerColor (unit p.colorMode) (unit_pos _) mh
      (flipFun p.bitsPerColor (unit p.colorMode) mh) n (rowsOf bmp p.heightPx (rowBytes p.colorMode p.widthPx) mv)
      (fun r hr => by
        have := lineData_ok p mh r (hrl r hr)
        exact ⟨this.1, by rw [this.2.1, hrl r hr, hn]⟩)
    have hrows : (rowsOf bmp p.heightPx (rowBytes p.colorMode p.widthPx) mv).length = p.heightPx := by simp [rowsOf]
    rw [hrows] at e2
    have h1' := h1
    unfold bmpToPwg at h1'
    obtain ⟨hdr', g1, g2⟩ := Outcome.bind_eq_ok.mp h1'
    simp only [widthBytes_eq, Outcome.bind_ok] at g2
    rw [if_neg (by omega), oneChunk_eq, ← hmh, ← hmv, e1, Outcome.bind_ok, Outcome.pure_eq] at g2
    have g3 : hdr' ++ enc = hdr ++ body := by injection g2
    have hl' : hdr'.length = hdr.length := by
      unfold pageHdr at g1
      split at g1
      · rename_i hfm
        obtain ⟨hd, q1, q2, q3, -⟩ := h2 hfm
        rw [q1, Outcome.bind_ok, Outcome.pure_eq] at g1
        injection g1 with g1
        rw [← g1, q2]
      · rename_i hfm
        obtain ⟨hd, q1, q2, q3, -⟩ := h3 (by simpa using hfm)
        rw [q1, Outcome.bind_ok, Outcome.pure_eq] at g1
        injection g1 with g1
        rw [← g1, q2]
    have := (List.append_inj g3 hl').2
    exact ⟨pxs, this ▸ e2⟩
  obtain ⟨rows, hrows⟩ := hbody
  refine ⟨hdr, body, n, rows, h1, fun hfm => ?_, fun hfm => ?_, hn, hrows, ?_⟩
  · obtain ⟨hd, -, -, q3, q4⟩ := h2 hfm
    exact ⟨q3, q4⟩
  · obtain ⟨hd, -, -, q3, q4⟩ := h3 hfm
    exact ⟨q3, q4⟩
  · have e1 := decodeRows_pageCode hrows (unit_pos _) false (fun h => by cases h) (by have := hf.height; omega) [] []
    have e2 := h4 false []
    unfold rasterToBmp at e2
    rw [hn, e1] at e2
    have e3 : (rows.map List.flatten).flatten = out := by simpa using e2
    rw [e3]
    refine ⟨h5, fun hn => ?_, h7⟩
    rw [h6 hn, ← hlen, List.take_length]

/-! ## C99 -/

/-- **C99** PWG: pages in any color mode, with 1, 8 or 16 bits per color, become a PWG raster document with exactly these pages. -/
theorem C99_pwg (pages : List (Params × Nat × Bytes))
    (h : ∀ x ∈ pages, x.1.format ≠ .URF ∧ Spec.Fits x.1 ∧ x.2.2.length = x.1.heightPx * rowBytes x.1.colorMode x.1.widthPx) :
    ∃ enc, encodePages pages = .ok enc ∧ PwgDocument pages (pwgFileHdr ++ enc) := by
  have main : ∃ enc shown, encodePages pages = .ok enc ∧ PwgPages shown enc ∧ All2 IsPwgPage pages shown := by
    induction pages with
    | nil => exact ⟨[], [], rfl, .none, .nil⟩
    | cons x xs ih =>
      obtain ⟨enc, shown, he, ho, ha⟩ := ih (fun y hy => h y (by simp [hy]))
      obtain ⟨p, page, bmp⟩ := x
      obtain ⟨hfm, hfit, hlen⟩ := h (p, page, bmp) (by simp)
      simp only at hfm hfit hlen
      obtain ⟨hdr, body, n, rows, h1, h2, -, h4, h5, h6⟩ := bmpToPwg_code p page bmp hfit (fun h => absurd h hfm) hlen
      obtain ⟨q1, q2⟩ := h2 hfm
      have hu : (u32At hdr 388 + 7) / 8 = unit p.colorMode := by rw [q2.bitsPerPixel]; rfl
      refine ⟨hdr ++ body ++ enc, (hdr, (rows.map List.flatten).flatten) :: shown, ?_, ?_, .cons ⟨q2, h6⟩ ha⟩
      · simp only [encodePages, h1, he, Outcome.bind_ok, Outcome.pure_eq]
      · rw [List.append_assoc]
        refine .page hdr body enc n rows shown q1 ?_ ?_ ?_ ho
        · rw [hu, q2.bytesPerLine, h4]
        · rw [q2.bitsPerPixel]; cases p.colorMode <;> decide
        · rw [hu, q2.height]; exact h5
  obtain ⟨enc, shown, h1, h2, h3⟩ := main
  refine ⟨enc, h1, shown, ⟨enc, ?_, h2⟩, h3⟩
  rw [C02_file_header]

theorem fourBytes (a b c d : Nat) : a * 16777216 + b * 65536 + c * 256 + d = ((a * 256 + b) * 256 + c) * 256 + d := by omega

/-- **C99** URF: pages that URF can express, with 8 or 16 bits per color, become a URF document with exactly these pages. -/
theorem C99_urf (count : Nat) (hc : count < 2 ^ 32) (pages : List (Params × Nat × Bytes))
    (h : ∀ x ∈ pages, x.1.format = .URF ∧ UrfAble x.1 ∧ Spec.Fits x.1 ∧
      x.2.2.length = x.1.heightPx * rowBytes x.1.colorMode x.1.widthPx) :
    ∃ enc, encodePages pages = .ok enc ∧ UrfDocument count pages (urfFileHdr count ++ enc) := by
  have main : ∃ enc shown, encodePages pages = .ok enc ∧ UrfPages shown enc ∧ All2 IsUrfPage pages shown := by
    induction pages with
    | nil => exact ⟨[], [], rfl, .none, .nil⟩
    | cons x xs ih =>
      obtain ⟨enc, shown, he, ho, ha⟩ := ih (fun y hy => h y (by simp [hy]))
      obtain ⟨p, page, bmp⟩ := x
      obtain ⟨hfm, hable, hfit, hlen⟩ := h (p, page, bmp) (by simp)
      simp only at hfm hable hfit hlen
      obtain ⟨hdr, body, n, rows, h1, -, h3, h4, h5, h6⟩ := bmpToPwg_code p page bmp hfit (fun _ => hable) hlen
      obtain ⟨q1, q2⟩ := h3 hfm
      have hu : (u8At hdr 0 + 7) / 8 = unit p.colorMode := by rw [q2.bitsPerPixel]; rfl
      have hw : n = p.widthPx := by
        obtain ⟨-, ⟨k, hk⟩, -⟩ := hable
        have hb : bitsPerPixel p.colorMode = 8 * unit p.colorMode := by
          revert hk; unfold urfColorNumber bitsPerPixel unit; cases p.colorMode <;> simp [bitsPerPixel]
        have hpos := unit_pos p.colorMode
        unfold rowBytes at h4
        rw [hb, Nat.mul_left_comm] at h4
        have : n * unit p.colorMode = p.widthPx * unit p.colorMode := by omega
        exact Nat.eq_of_mul_eq_mul_right hpos this
      refine ⟨hdr ++ body ++ enc, (hdr, (rows.map List.flatten).flatten) :: shown, ?_, ?_, .cons ⟨q2, h6⟩ ha⟩
      · simp only [encodePages, h1, he, Outcome.bind_ok, Outcome.pure_eq]
      · rw [List.append_assoc]
        refine .page hdr body enc rows shown q1 ?_ ho
        rw [hu, q2.height, q2.width, ← hw]; exact pageCode_fill h5
  obtain ⟨enc, shown, h1, h2, h3⟩ := main
  obtain ⟨a, b, c, d, e1, e2⟩ := C03_file_header count hc
  refine ⟨enc, h1, shown, ⟨[a, b, c, d], enc, ?_, rfl, ?_, h2⟩, h3⟩
  · rw [e1]; rfl
  · have e3 : u32At [a, b, c, d] 0 = a.toNat * 16777216 + b.toNat * 65536 + c.toNat * 256 + d.toNat := rfl
    rw [e3, ← e2, fourBytes]

/-! ## One meaning only -/

theorem rowCode_det {c : Nat} {fill : Bool} {n : Nat} {code : Bytes} {pxs : List Bytes} (h : RowCode c fill n code pxs) :
    ∀ (m : Nat) (code' : Bytes) (pxs' : List Bytes), RowCode c fill m code' pxs' → m = n → ∀ (rest rest' : Bytes),
      code ++ rest = code' ++ rest' → pxs = pxs' ∧ rest = rest' := by
  have hne : ∀ (k l : Nat), k < 128 → 2 ≤ l → l ≤ 128 → UInt8.ofNat k ≠ UInt8.ofNat (257 - l) := by
    intro k l h1 h2 h3 h4
    have := congrArg UInt8.toNat h4
    simp at this; omega
  have hne2 : ∀ k : Nat, k < 128 → UInt8.ofNat k ≠ 128 := by
    intro k h1 h4
    have := congrArg UInt8.toNat h4
    simp at this; omega
  have hne3 : ∀ l : Nat, 2 ≤ l → l ≤ 128 → UInt8.ofNat (257 - l) ≠ 128 := by
    intro k h1 h2 h4
    have := congrArg UInt8.toNat h4
    simp at this; omega
  induction h with
  | done =>
    intro m code' pxs' h' hm rest rest' he
    cases h' with
    | done => exact ⟨rfl, he⟩
    | repeated => omega
    | literal => omega
    | fill => omega
  | repeated k n hk px code pxs hp _ ih =>
    intro m code' pxs' h' hm rest rest' he
    cases h' with
    | done => omega
    | repeated k' n' hk' px' code' pxs' hp' h' =>
      simp only [List.cons_append, List.append_assoc, List.cons.injEq] at he
      have e1 := congrArg UInt8.toNat he.1
      simp at e1
      have e1 : k = k' := by omega
      obtain ⟨e2, e3⟩ := List.append_inj he.2 (by omega)
      obtain ⟨e4, e5⟩ := ih n' code' pxs' h' (by omega) rest rest' e3
      subst e1 e2 e4
      exact ⟨rfl, e5⟩
    | literal n' lit pxs' code' h1 h2 hp' h' =>
      simp only [List.cons_append, List.append_assoc, List.cons.injEq] at he
      exact absurd he.1 (hne k _ hk h1 h2)
    | fill =>
      simp only [List.cons_append, List.cons.injEq] at he
      exact absurd he.1 (hne2 k hk)
  | literal n lit pxs code h1 h2 hp _ ih =>
    intro m code' pxs' h' hm rest rest' he
    cases h' with
    | done => omega
    | repeated k' n' hk' px' code' pxs' hp' h' =>
      simp only [List.cons_append, List.append_assoc, List.cons.injEq] at he
      exact absurd he.1.symm (hne k' _ hk' h1 h2)
    | literal n' lit' pxs' code' h1' h2' hp' h' =>
      simp only [List.cons_append, List.append_assoc, List.cons.injEq] at he
      have e1 : lit.length = lit'.length := by
        have e0 := congrArg UInt8.toNat he.1
        simp at e0
        omega
      have l1 := flatten_length_const c lit hp
      have l2 := flatten_length_const c lit' hp'
      obtain ⟨e2, e3⟩ := List.append_inj he.2 (by rw [l1, l2, e1])
      obtain ⟨e4, e5⟩ := ih n' code' pxs' h' (by omega) rest rest' e3
      have e6 : lit = lit' := by
        clear ih l1 l2 he e3 hm h1 h2 h1' h2'
        induction lit generalizing lit' with
        | nil => cases lit' with
          | nil => rfl
          | cons => simp at e1
        | cons x xs ihl => cases lit' with
          | nil => simp at e1
          | cons y ys =>
            simp only [List.flatten_cons] at e2
            have hx := hp x (by simp)
            have hy := hp' y (by simp)
            obtain ⟨e7, e8⟩ := List.append_inj e2 (by omega)
            rw [e7, ihl (fun z hz => hp z (by simp [hz])) ys (fun z hz => hp' z (by simp [hz])) (by simpa using e1) e8]
      rw [e6, e4]
      exact ⟨rfl, e5⟩
    | fill =>
      simp only [List.cons_append, List.cons.injEq] at he
      exact absurd he.1 (hne3 _ h1 h2)
  | fill n hn hf =>
    intro m code' pxs' h' hm rest rest' he
    cases h' with
    | done => omega
    | repeated k' n' hk' px' code' pxs' hp' h' =>
      simp only [List.cons_append, List.cons.injEq] at he
      exact absurd he.1.symm (hne2 k' hk')
    | literal n' lit' pxs' code' h1' h2' hp' h' =>
      simp only [List.cons_append, List.cons.injEq] at he
      exact absurd he.1.symm (hne3 _ h1' h2')
    | fill =>
      subst hm
      exact ⟨rfl, by simpa using he⟩

theorem pageCode_det {c : Nat} {fill : Bool} {n h : Nat} {code : Bytes} {rows : List (List Bytes)} (hp : PageCode c fill n h code rows) :
    ∀ (m : Nat) (code' : Bytes) (rows' : List (List Bytes)), PageCode c fill n m code' rows' → m = h → ∀ (rest rest' : Bytes),
      code ++ rest = code' ++ rest' → rows = rows' ∧ rest = rest' := by
  induction hp with
  | done =>
    intro m code' rows' h' hm rest rest' he
    cases h' with
    | done => exact ⟨rfl, he⟩
    | rows => omega
  | rows k h hk row code pxs rows hr _ ih =>
    intro m code' rows' h' hm rest rest' he
    cases h' with
    | done => omega
    | rows k' h' hk' row' code' pxs' rows' hr' hp' =>
      simp only [List.cons_append, List.append_assoc, List.cons.injEq] at he
      have e1 := congrArg UInt8.toNat he.1
      simp at e1
      have e1 : k = k' := by omega
      obtain ⟨e2, e3⟩ := rowCode_det hr _ _ _ hr' rfl _ _ he.2
      obtain ⟨e4, e5⟩ := ih _ _ _ hp' (by omega) _ _ e3
      subst e1 e2 e4
      exact ⟨rfl, e5⟩

theorem pwgPages_det {xs : List (Bytes × Bytes)} {f : Bytes} (h : PwgPages xs f) :
    ∀ ys, PwgPages ys f → xs = ys := by
  induction h with
  | none =>
    intro ys h'
    generalize hf : ([] : Bytes) = f at h'
    cases h' with
    | none => rfl
    | page hdr code more n rows xs hl =>
      have := congrArg List.length hf
      simp [hl] at this
      omega
  | page hdr code more n rows xs hl hb hpos hp _ ih =>
    intro ys h'
    generalize hf : hdr ++ (code ++ more) = f at h'
    cases h' with
    | none =>
      have := congrArg List.length hf
      simp [hl] at this
    | page hdr' code' more' n' rows' xs' hl' hb' hpos' hp' hmore =>
      obtain ⟨e1, e2⟩ := List.append_inj hf (by omega)
      subst e1
      have e3 : n = n' := by
        have hc : 0 < (u32At hdr 388 + 7) / 8 := by omega
        exact Nat.eq_of_mul_eq_mul_right hc (by rw [← hb, ← hb'])
      subst e3
      obtain ⟨e4, e5⟩ := pageCode_det hp _ _ _ hp' rfl _ _ e2
      subst e4 e5
      rw [ih _ hmore]

theorem urfPages_det {xs : List (Bytes × Bytes)} {f : Bytes} (h : UrfPages xs f) :
    ∀ ys, UrfPages ys f → xs = ys := by
  induction h with
  | none =>
    intro ys h'
    generalize hf : ([] : Bytes) = f at h'
    cases h' with
    | none => rfl
    | page hdr code more rows xs hl =>
      have := congrArg List.length hf
      simp [hl] at this
      omega
  | page hdr code more rows xs hl hp _ ih =>
    intro ys h'
    generalize hf : hdr ++ (code ++ more) = f at h'
    cases h' with
    | none =>
      have := congrArg List.length hf
      simp [hl] at this
    | page hdr' code' more' rows' xs' hl' hp' hmore =>
      obtain ⟨e1, e2⟩ := List.append_inj hf (by omega)
      subst e1
      obtain ⟨e4, e5⟩ := pageCode_det hp _ _ _ hp' rfl _ _ e2
      subst e4 e5
      rw [ih _ hmore]

/-- **C99** A file stands for one sequence of pages only: headers and rows are determined by the bytes, in PWG raster and in URF. -/
theorem C99_unambiguous (file : Bytes) :
    (∀ xs ys, PwgFile xs file → PwgFile ys file → xs = ys) ∧
    (∀ c c' xs ys, UrfFile c xs file → UrfFile c' ys file → c = c' ∧ xs = ys) := by
  constructor
  · rintro xs ys ⟨b, h1, h2⟩ ⟨b', h3, h4⟩
    rw [h1] at h3
    have := List.append_cancel_left h3
    subst this
    exact pwgPages_det h2 ys h4
  · rintro c c' xs ys ⟨n, b, h1, h2, h3, h4⟩ ⟨n', b', h5, h6, h7, h8⟩
    rw [h1] at h5
    obtain ⟨e1, e2⟩ := List.append_inj (List.append_cancel_left h5) (by omega)
    subst e1 e2
    exact ⟨by omega, urfPages_det h4 ys h8⟩

/-- **C99** No file is both. -/
theorem C99_either (file : Bytes) (xs ys : List (Bytes × Bytes)) (c : Nat) : ¬ (PwgFile xs file ∧ UrfFile c ys file) := by
  rintro ⟨⟨b, h1, -⟩, ⟨n, b', h2, -⟩⟩
  rw [h1] at h2
  simp at h2

/-- A page of two pixels with 16 bits per color, and one of two 1-bit pixels. -/
example : ∀ x ∈ [(({ colorMode := .Gray16, widthPx := 2, heightPx := 1 } : Params), 1, ([1, 2, 3, 4] : Bytes)),
      ({ colorMode := .Black1, widthPx := 2, heightPx := 1 }, 2, [192])],
    x.1.format ≠ .URF ∧ Spec.Fits x.1 ∧ x.2.2.length = x.1.heightPx * rowBytes x.1.colorMode x.1.widthPx := by
  intro x hx
  simp only [List.mem_cons, List.not_mem_nil, or_false] at hx
  rcases hx with rfl | rfl
  · exact ⟨by decide, by constructor <;> decide, by decide⟩
  · exact ⟨by decide, by constructor <;> decide, by decide⟩

/-- A URF page with 16 bits per color. -/
example : ∀ x ∈ [(({ format := .URF, colorMode := .sRGB48, widthPx := 1, heightPx := 1 } : Params), 1, ([1, 2, 3, 4, 5, 6] : Bytes))],
    x.1.format = .URF ∧ UrfAble x.1 ∧ Spec.Fits x.1 ∧ x.2.2.length = x.1.heightPx * rowBytes x.1.colorMode x.1.widthPx := by
  intro x hx
  simp only [List.mem_cons, List.not_mem_nil, or_false] at hx
  rcases hx with rfl
  exact ⟨rfl, ⟨rfl, ⟨1, .inl ⟨.inr rfl, rfl⟩⟩, ⟨0, .inl ⟨rfl, rfl⟩⟩⟩, by constructor <;> decide, by decide⟩

end Verif.Raster
