import Verif.Raster.Stream
import Verif.Raster.ToolChain
import Verif.Raster.Props

/-!
# Property theorems on raster streams of any encoder, and on the chain of the two tools: C09, C60, C61
-/

namespace Verif.Raster

open Spec

/-- **C09**, complete: decoding does not end exactly when the reader, after some whole rows and within a row that is needed, comes to a fill code which
it can not obey, because the row is too long already or the rest of it is not a whole number of pixels. -/
theorem C09_endless_iff (file : Bytes) (byteWidth height colors : Nat) (urf : Bool) :
    rasterToBmp file byteWidth height colors urf = .hang ↔
    urf = true ∧ ∃ done h' k code rest total, file = done ++ k :: (code ++ 128 :: rest) ∧
      WholeRows colors byteWidth true height done h' ∧ h' ≠ 0 ∧
      Inside colors byteWidth true 0 code total ∧ Stuck colors byteWidth total :=
  decodeRows_hang_iff colors byteWidth urf height [] file

/-- Both sides can hold: two gray pixels for a row of one. -/
example : rasterToBmp [0, 1, 7, 128] 1 1 1 true = .hang :=
  (C09_endless_iff _ _ _ _ _).mpr ⟨rfl, [], 1, 0, [1, 7], [], 2, rfl, .none 1, by decide,
    .repeated 0 1 2 (by decide) (by decide) [7] [] rfl (.here 2 (by decide)), .inl (by decide)⟩

/-- **C09**, every other outcome is a result or an exception. -/
theorem C09_otherwise_ends (file : Bytes) (byteWidth height colors : Nat) (urf : Bool)
    (h : rasterToBmp file byteWidth height colors urf ≠ .hang) :
    (∃ x, rasterToBmp file byteWidth height colors urf = .ok x) ∨
    ∃ e, rasterToBmp file byteWidth height colors urf = .throws e := by
  have hub := decodeRows_not_ub colors byteWidth urf height [] file
  unfold rasterToBmp at *
  cases hd : decodeRows colors byteWidth urf height [] file with
  | ok x => exact .inl ⟨x, rfl⟩
  | throws e => exact .inr ⟨e, rfl⟩
  | ub => exact absurd hd hub
  | hang => exact absurd hd h

example : rasterToBmp [0, 0, 7] 1 1 1 true ≠ .hang := by decide +kernel

/-! ## C60 -/

/-- The full C60: every page of well-formed codes (in URF also with fill codes) is read as the pixels the codes stand for, and what follows is
left alone. -/
def C60_full : Prop :=
  ∀ (c n h : Nat) (urf : Bool) (code rest : Bytes) (rows : List (List Bytes)), (c = 1 ∨ c = 3 ∨ c = 4) → h < 2 ^ 64 →
    PageCode c urf n h code rows →
    rasterToBmp (code ++ rest) (n * c) h c urf = .ok ((rows.map List.flatten).flatten, rest)

/-- **C60** is false: the fill code of a gray URF page is read as black. -/
theorem C60_any_encoder_false : ¬ C60_full := by
  intro h
  have h1 : PageCode 1 true 1 1 [0, 128] [[[255]]] :=
    .rows 0 0 (by decide) [128] [] [[255]] [] (.fill 1 (by decide) rfl) .done
  have h2 := h 1 1 1 true [0, 128] [] [[[255]]] (.inl rfl) (by decide) h1
  have h3 : rasterToBmp ([0, 128] ++ []) (1 * 1) 1 1 true = .ok ([0], []) := by decide +kernel
  rw [h3] at h2
  exact absurd h2 (by decide)

/-- **C60**, what holds: all pages without fill codes, of any pixel size; and with fill codes URF pages in sRGB (3 bytes) and CMYK (4 bytes). Missing:
fill codes in gray pages. -/
theorem C60_any_encoder_partial (c n h : Nat) (fill urf : Bool) (code rest : Bytes) (rows : List (List Bytes)) (hc : 0 < c)
    (hu : fill = true → urf = true ∧ (c = 3 ∨ c = 4)) (hh : h < 2 ^ 64) (hp : PageCode c fill n h code rows) :
    rasterToBmp (code ++ rest) (n * c) h c urf = .ok ((rows.map List.flatten).flatten, rest) := by
  have := decodeRows_pageCode hp hc urf hu hh [] rest
  rwa [List.nil_append] at this

/-- An sRGB page of two rows with two pixels, the second one white by a fill code. -/
example : PageCode 3 true 2 2 [1, 0, 10, 20, 30, 128] [[[10, 20, 30], [255, 255, 255]], [[10, 20, 30], [255, 255, 255]]] :=
  .rows 1 0 (by decide) [0, 10, 20, 30, 128] [] [[10, 20, 30], [255, 255, 255]] []
    (.repeated 0 1 (by decide) [10, 20, 30] [128] [[255, 255, 255]] rfl (.fill 1 (by decide) rfl)) .done

/-- The codes have one meaning only: the same codes can not stand for two different pages. -/
theorem C60_unambiguous (c n h : Nat) (fill : Bool) (code : Bytes) (rows rows' : List (List Bytes)) (hc : 0 < c)
    (hu : fill = true → c = 3 ∨ c = 4) (hh : h < 2 ^ 64) (h1 : PageCode c fill n h code rows) (h2 : PageCode c fill n h code rows') :
    (rows.map List.flatten).flatten = (rows'.map List.flatten).flatten := by
  have e1 := C60_any_encoder_partial c n h fill true code [] rows hc (fun hf => ⟨rfl, hu hf⟩) hh h1
  have e2 := C60_any_encoder_partial c n h fill true code [] rows' hc (fun hf => ⟨rfl, hu hf⟩) hh h2
  rw [e1] at e2
  simpa using e2

/-! ## C61 -/

/-- **C61** is false for bitmaps: the file that pwg2ppm writes has a line "255" too much. -/
theorem C61_tool_chain_false : ∃ (g : PnmPage) (p : Params) (file : Bytes), g.Wf ∧ g.last = 10 ∧ g.pixels.head? ≠ some 35 ∧
    Spec.Fits (g.params (fun _ _ => 1) p) ∧ p.duplexMode = .OneSided ∧
    ppm2pwg (fun _ _ => 1) 1 p g.bytes = some file ∧ pwg2ppm [] file ≠ .ok (some (expectedFiles [] 1 [g])) := by
  have h : (match ppm2pwg (fun _ _ => 1) 1 {} (PnmPage.bytes { plainPage with kind := .pbm, width := 8, pixels := [1] }) with
      | some file => decide (pwg2ppm [] file ≠
          .ok (some (expectedFiles [] 1 [{ plainPage with kind := .pbm, width := 8, pixels := [1] }])))
      | none => false) = true := by
    decide +kernel
  split at h
  · rename_i file hf
    exact ⟨{ plainPage with kind := .pbm, width := 8, pixels := [1] }, {}, file, by constructor <;> decide, rfl, by decide,
      by constructor <;> decide, rfl, hf, by simpa using h⟩
  · cases h

/-- **C61** is false for pictures with 16 bits per color, by way of PWG and by way of URF: pwg2ppm writes files with 8 bits. -/
theorem C61_deep_false : ∀ format : Format, ∃ (g : PnmPage) (file : Bytes), g.Wf ∧ g.kind = .pgm16 ∧ g.last = 10 ∧ g.pixels.head? ≠ some 35 ∧
    Spec.Fits (g.params (fun _ _ => 1) { format := format }) ∧ (format = .URF → UrfAble (g.params (fun _ _ => 1) { format := format })) ∧
    ppm2pwg (fun _ _ => 1) 1 { format := format } g.bytes = some file ∧ pwg2ppm [] file ≠ .ok (some (expectedFiles [] 1 [g])) := by
  intro format
  have h : (match ppm2pwg (fun _ _ => 1) 1 { format := format } (PnmPage.bytes { plainPage with kind := .pgm16, width := 1, pixels := [1, 2] }) with
      | some file => decide (pwg2ppm [] file ≠
          .ok (some (expectedFiles [] 1 [{ plainPage with kind := .pgm16, width := 1, pixels := [1, 2] }])))
      | none => false) = true := by
    cases format <;> decide +kernel
  split at h
  · rename_i file hf
    exact ⟨{ plainPage with kind := .pgm16, width := 1, pixels := [1, 2] }, file, by constructor <;> decide, rfl, rfl, by decide,
      by cases format <;> (constructor <;> decide), fun _ => ⟨rfl, ⟨0, .inr (.inr ⟨.inr rfl, rfl⟩)⟩, 0, .inl ⟨rfl, rfl⟩⟩, hf, by simpa using h⟩
  · cases h

theorem pages_mem {pt : Nat → Nat → Nat} {p : Params} {gs : List PnmPage} {pages : List (Params × Nat × Bytes)}
    (ha : pages.map (fun x => x.2.2) = gs.map PnmPage.pixels) (hb : pages.map (fun x => x.1) = gs.map (PnmPage.params pt p)) :
    ∀ x ∈ pages, ∃ g ∈ gs, x.1 = g.params pt p ∧ x.2.2 = g.pixels := by
  induction gs generalizing pages with
  | nil => cases pages <;> simp_all
  | cons g gs ih =>
    intro x hx
    cases pages with
    | nil => cases hx
    | cons y ys =>
      simp only [List.map_cons, List.cons.injEq] at ha hb
      rcases List.mem_cons.mp hx with rfl | hx
      · exact ⟨g, by simp, hb.1, ha.1⟩
      · obtain ⟨g', hg', h⟩ := ih ha.2 hb.2 x hx
        exact ⟨g', by simp [hg'], h⟩

/-- **C61**, what holds: any number of pictures of 8 bits per color go through ppm2pwg and pwg2ppm, by way of PWG or of URF, and come back one
file per page, in order, with their sizes and exactly their pixels (pages that are not turned over). Missing: bitmaps and 16 bits per color (false), and what C13 leaves
out. -/
theorem C61_tool_chain_partial (pt : Nat → Nat → Nat) (count : Nat) (hcount : count < 2 ^ 32) (pre : Bytes) (p : Params)
    (gs : List PnmPage) (hne : gs ≠ []) (hwf : ∀ g ∈ gs, g.Wf ∧ g.last = 10 ∧ g.pixels.head? ≠ some 35)
    (hk : ∀ g ∈ gs, g.kind = .pgm8 ∨ g.kind = .ppm8) (hf : ∀ g ∈ gs, Spec.Fits (g.params pt p))
    (hurf : p.format = .URF → ∀ g ∈ gs, UrfAble (g.params pt p)) (hd : p.duplexMode = .OneSided) :
    ∃ file, ppm2pwg pt count p (gs.map PnmPage.bytes).flatten = some file ∧
      pwg2ppm pre file = .ok (some (expectedFiles pre 1 gs)) := by
  obtain ⟨pages, h1, h2, h3, h4⟩ := C13_pnm_pixels_partial pt gs hne hwf 1 p
    (fun g hg hb => by rcases hk g hg with h | h <;> rw [h] at hb <;> cases hb)
  have hmem := pages_mem h3 h4
  have hflip : ∀ (g : PnmPage) (page : Nat), ¬ Flipped (g.params pt p) page := by
    rintro g page ⟨⟨h, _⟩, _⟩; exact h hd
  unfold ppm2pwg
  simp only [h1]
  by_cases hfm : p.format = .URF
  · obtain ⟨enc, outs, e1, e2, e3⟩ := C03_urf_document count hcount pages (by
      intro x hx
      obtain ⟨g, hg, e1, e2⟩ := hmem x hx
      rw [e1, e2]
      exact ⟨hfm, hurf hfm g hg, hf g hg, (hwf g hg).1.size⟩)
    rw [e1, if_pos hfm]
    refine ⟨_, rfl, ?_⟩
    unfold pwg2ppm
    rw [e2]
    simp only [Outcome.bind_ok, Outcome.pure_eq]
    have hbits : ∀ o ∈ outs, o.bits = 8 ∧ o.black = false := by
      unfold readRaster at e2
      split at e2
      · obtain ⟨_, _, e⟩ := Outcome.bind_eq_ok.mp e2; cases e
      · split at e2
        · split at e2
          · cases e2
          · obtain ⟨a, _, e⟩ := Outcome.bind_eq_ok.mp e2
            obtain ⟨b, hb, e⟩ := Outcome.bind_eq_ok.mp e
            cases e
            exact readUrfPages_bits hb
        · cases e2
    congr 2
    apply pictureFiles_expected
    refine All2.imp_mem (all2_pages (pt := pt) (p := p) e3 h3 h4) ?_
    rintro g hg o ho ⟨page, s1, s2, s3, s4⟩
    refine writePpm_plain g o (hk g hg) s1 s2 ?_ (hbits o ho).1 (s4.same (hflip g page))
    rcases hk g hg with h | h <;> simp only [PnmPage.params, h, PnmKind.mode, bitsPerPixel, colors] at s3 ⊢ <;> omega
  · obtain ⟨enc, outs, e1, e2, e3⟩ := C02_pwg_document pages (by
      intro x hx
      obtain ⟨g, hg, e1, e2⟩ := hmem x hx
      rw [e1, e2]
      refine ⟨hfm, hf g hg, ?_, (hwf g hg).1.size⟩
      rcases hk g hg with h | h <;> simp [PnmPage.params, h, PnmKind.mode, bitsPerColor])
    rw [e1, if_neg hfm]
    refine ⟨_, rfl, ?_⟩
    unfold pwg2ppm
    rw [e2]
    simp only [Outcome.bind_ok, Outcome.pure_eq]
    congr 2
    apply pictureFiles_expected
    refine All2.imp_mem (all2_pages (pt := pt) (p := p) e3 h3 h4) ?_
    rintro g hg o ho ⟨page, s1, s2, s3, s4, s5, s6⟩
    refine writePpm_plain g o (hk g hg) s1 s2 s3 ?_ (s6.same (hflip g page))
    rw [s4]
    rcases hk g hg with h | h <;> simp [PnmPage.params, h, PnmKind.mode, bitsPerColor]

/-- **C61, with bitmaps.** By way of PWG bitmaps come back too, with exactly their pixels (black stays black), but for the line "255" before them (`C61_tool_chain_false`);
the other pictures come back as they are. -/
theorem C61_bitmaps_partial (pt : Nat → Nat → Nat) (count : Nat) (pre : Bytes) (p : Params) (hp : p.format = .PWG)
    (gs : List PnmPage) (hne : gs ≠ []) (hwf : ∀ g ∈ gs, g.Wf ∧ g.last = 10 ∧ g.pixels.head? ≠ some 35)
    (hk : ∀ g ∈ gs, g.kind = .pbm ∨ g.kind = .pgm8 ∨ g.kind = .ppm8) (hf : ∀ g ∈ gs, Spec.Fits (g.params pt p)) (hd : p.duplexMode = .OneSided) :
    ∃ file, ppm2pwg pt count p (gs.map PnmPage.bytes).flatten = some file ∧
      pwg2ppm pre file = .ok (some (expectedFiles pre 1 (gs.map PnmPage.withLine))) := by
  obtain ⟨pages, h1, h2, h3, h4⟩ := C13_pnm_pixels_partial pt gs hne hwf 1 p (fun g hg hb => by rw [hp]; decide)
  have hmem := pages_mem h3 h4
  have hflip : ∀ (g : PnmPage) (page : Nat), ¬ Flipped (g.params pt p) page := by
    rintro g page ⟨⟨h, _⟩, _⟩; exact h hd
  unfold ppm2pwg
  simp only [h1]
  have hfm : p.format ≠ .URF := by rw [hp]; decide
  obtain ⟨enc, outs, e1, e2, e3⟩ := C02_pwg_document pages (by
    intro x hx
    obtain ⟨g, hg, e1, e2⟩ := hmem x hx
    rw [e1, e2]
    refine ⟨hfm, hf g hg, ?_, (hwf g hg).1.size⟩
    rcases hk g hg with h | h | h <;> simp [PnmPage.params, h, PnmKind.mode, bitsPerColor])
  rw [e1, if_neg hfm]
  refine ⟨_, rfl, ?_⟩
  unfold pwg2ppm
  rw [e2]
  simp only [Outcome.bind_ok, Outcome.pure_eq]
  congr 2
  apply pictureFiles_expected
  have hall : All2 (fun g o => writePpm o = (g.withLine.kind.ext, g.withLine.plain.bytes)) gs outs := by
    refine All2.imp_mem (all2_pages (pt := pt) (p := p) e3 h3 h4) ?_
    rintro g hg o ho ⟨page, s1, s2, s3, s4, s5, s6⟩
    have hs := s6.same (hflip g page)
    by_cases hb : g.kind = .pbm
    · refine writePpm_bitmap g o hb s1 s2 ?_ ?_ ?_
      · rw [s3]; simp [PnmPage.params, hb, PnmKind.mode, colors]
      · rw [s4]; simp [PnmPage.params, hb, PnmKind.mode, bitsPerColor]
      · rw [if_pos (s5.mpr (.inr (by simp [PnmPage.params, hb, PnmKind.mode])))]; exact hs
    · have hk' := (hk g hg).resolve_left hb
      have hw : g.withLine = g := by unfold PnmPage.withLine; rw [if_neg hb]
      rw [hw]
      refine writePpm_plain g o hk' s1 s2 s3 ?_ hs
      rw [s4]
      rcases hk' with h | h <;> simp [PnmPage.params, h, PnmKind.mode, bitsPerColor]
  have hmap : ∀ {gs : List PnmPage} {outs : List PageOut}, All2 (fun g o => writePpm o = (g.withLine.kind.ext, g.withLine.plain.bytes)) gs outs →
      All2 (fun g o => writePpm o = (g.kind.ext, g.plain.bytes)) (gs.map PnmPage.withLine) outs := by
    intro gs outs h
    induction h with
    | nil => exact .nil
    | cons h _ ih => exact .cons h ih
  exact hmap hall

/-- a bitmap and a gray picture that meet the hypotheses, and what comes out -/
example : (∀ g ∈ [{ plainPage with kind := .pbm, width := 24 }, plainPage], g.Wf ∧ g.last = 10 ∧ g.pixels.head? ≠ some 35 ∧ Spec.Fits (g.params (fun _ _ => 1) {})) ∧
    expectedFiles [] 1 ([{ plainPage with kind := .pbm, width := 24 }, plainPage].map PnmPage.withLine) =
      [(ascii "1.pbm", ascii "P4\n24 1\n255\n" ++ [1, 2, 3]), (ascii "2.pgm", ascii "P5\n3 1\n255\n" ++ [1, 2, 3])] := by
  refine ⟨?_, by decide +kernel⟩
  intro g hg
  simp only [List.mem_cons, List.not_mem_nil, or_false] at hg
  rcases hg with rfl | rfl <;> exact ⟨by constructor <;> decide, rfl, by decide, by constructor <;> decide⟩

example : ∀ g ∈ [plainPage, { plainPage with kind := .ppm8, width := 1 }], g.Wf ∧ g.last = 10 ∧ g.pixels.head? ≠ some 35 ∧
    (g.kind = .pgm8 ∨ g.kind = .ppm8) ∧ Spec.Fits (g.params (fun _ _ => 1) {}) := by
  intro g hg
  simp only [List.mem_cons, List.not_mem_nil, or_false] at hg
  rcases hg with rfl | rfl <;>
    exact ⟨by constructor <;> decide, rfl, by decide, by decide, by constructor <;> decide⟩

/-- Like `all2_pages`, with the numbers of the pages. -/
theorem all2_pages_idx {pt : Nat → Nat → Nat} {p : Params} {R : Params × Nat × Bytes → PageOut → Prop} {pages : List (Params × Nat × Bytes)}
    {outs : List PageOut} (ha : All2 R pages outs) {gs : List PnmPage} {k : Nat} (h1 : pages.map (fun x => x.2.1) = (List.range gs.length).map (k + ·))
    (h2 : pages.map (fun x => x.2.2) = gs.map PnmPage.pixels) (h3 : pages.map (fun x => x.1) = gs.map (PnmPage.params pt p)) :
    All2 (fun x o => R (x.1.params pt p, x.2, x.1.pixels) o) (gs.zipIdx k) outs := by
  induction ha generalizing gs k with
  | nil =>
    cases gs with
    | nil => exact .nil
    | cons g gs => cases h2
  | @cons x o xs os h _ ih =>
    cases gs with
    | nil => cases h2
    | cons g gs =>
      simp only [List.map_cons, List.cons.injEq] at h2 h3
      rw [List.length_cons, List.range_succ_eq_map, List.map_cons, List.map_cons, List.map_map] at h1
      simp only [List.cons.injEq, Nat.add_zero] at h1
      obtain ⟨q, page, bmp⟩ := x
      rw [List.zipIdx_cons]
      refine .cons ?_ (ih ?_ h2.2 h3.2)
      · simp only at h1 h2 h3
        rw [← h2.1, ← h3.1, ← h1.1]; exact h
      · rw [h1.2]
        apply List.map_congr_left
        intro i _
        simp only [Function.comp]; omega

/-- **C61, with pages that are turned over.** With any sides and any treatment of back sides, and with bitmaps by way of PWG: the pictures come back, one file per page, in order, with
their sizes, and every pixel is where the mirroring for its side puts it (on front sides: where it was). Bitmaps have a line "255" before their pixels. -/
theorem C61_sides_partial (pt : Nat → Nat → Nat) (count : Nat) (hcount : count < 2 ^ 32) (pre : Bytes) (p : Params)
    (gs : List PnmPage) (hne : gs ≠ []) (hwf : ∀ g ∈ gs, g.Wf ∧ g.last = 10 ∧ g.pixels.head? ≠ some 35)
    (hk : ∀ g ∈ gs, (g.kind = .pbm ∧ p.format ≠ .URF) ∨ g.kind = .pgm8 ∨ g.kind = .ppm8) (hf : ∀ g ∈ gs, Spec.Fits (g.params pt p))
    (hurf : p.format = .URF → ∀ g ∈ gs, UrfAble (g.params pt p)) :
    ∃ file back, ppm2pwg pt count p (gs.map PnmPage.bytes).flatten = some file ∧
      pwg2ppm pre file = .ok (some (expectedFiles pre 1 (back.map PnmPage.withLine))) ∧
      All2 (fun (x : PnmPage × Nat) g => ∃ px, g = { x.1 with pixels := px } ∧
        Transformed x.1.width x.1.height (rowBytes x.1.kind.mode x.1.width) (bitsPerPixel x.1.kind.mode)
          (decide (IsBack p.duplexMode x.2) && mirrorH p.duplexMode p.backXformMode)
          (decide (IsBack p.duplexMode x.2) && mirrorV p.duplexMode p.backXformMode) x.1.pixels px) (gs.zipIdx 1) back := by
  obtain ⟨pages, h1, h2, h3, h4⟩ := C13_pnm_pixels_partial pt gs hne hwf 1 p
    (fun g hg hb => by
      rcases hk g hg with h | h | h
      · exact h.2
      · rw [h] at hb; cases hb
      · rw [h] at hb; cases hb)
  have hmem := pages_mem h3 h4
  have hgs : ∀ {x : PnmPage × Nat}, x ∈ gs.zipIdx 1 → x.1 ∈ gs := by
    rintro ⟨g, i⟩ hx
    exact List.fst_mem_of_mem_zipIdx hx
  -- the pages that are read, and the pictures that are made of them
  have finish : ∀ (outs : List PageOut), All2 (fun (x : PnmPage × Nat) (o : PageOut) => o.width = x.1.width ∧ o.height = x.1.height ∧ o.colors = colors x.1.kind.mode ∧
      o.bits = bitsPerColor x.1.kind.mode ∧ (x.1.kind = .pbm → o.black = true) ∧ Pixels (x.1.params pt p) x.2 x.1.pixels o.bmp) (gs.zipIdx 1) outs →
      ∃ back, pictureFiles pre 1 outs = expectedFiles pre 1 (back.map PnmPage.withLine) ∧
        All2 (fun (x : PnmPage × Nat) g => ∃ px, g = { x.1 with pixels := px } ∧
          Transformed x.1.width x.1.height (rowBytes x.1.kind.mode x.1.width) (bitsPerPixel x.1.kind.mode)
            (decide (IsBack p.duplexMode x.2) && mirrorH p.duplexMode p.backXformMode)
            (decide (IsBack p.duplexMode x.2) && mirrorV p.duplexMode p.backXformMode) x.1.pixels px) (gs.zipIdx 1) back := by
    intro outs hall
    have hstep : ∀ (l : List (PnmPage × Nat)) (outs : List PageOut), (∀ x ∈ l, x.1 ∈ gs) →
        All2 (fun (x : PnmPage × Nat) (o : PageOut) => o.width = x.1.width ∧ o.height = x.1.height ∧ o.colors = colors x.1.kind.mode ∧
          o.bits = bitsPerColor x.1.kind.mode ∧ (x.1.kind = .pbm → o.black = true) ∧ Pixels (x.1.params pt p) x.2 x.1.pixels o.bmp) l outs →
        ∃ back, All2 (fun g o => writePpm o = (g.kind.ext, g.plain.bytes)) (back.map PnmPage.withLine) outs ∧
          All2 (fun (x : PnmPage × Nat) g => ∃ px, g = { x.1 with pixels := px } ∧
            Transformed x.1.width x.1.height (rowBytes x.1.kind.mode x.1.width) (bitsPerPixel x.1.kind.mode)
              (decide (IsBack p.duplexMode x.2) && mirrorH p.duplexMode p.backXformMode)
              (decide (IsBack p.duplexMode x.2) && mirrorV p.duplexMode p.backXformMode) x.1.pixels px) l back := by
      intro l outs hl ha
      induction ha with
      | nil => exact ⟨[], .nil, .nil⟩
      | @cons x o xs os h _ ih =>
        obtain ⟨back, b1, b2⟩ := ih (fun x hx => hl x (by simp [hx]))
        obtain ⟨s1, s2, s3, s4, s5, s6⟩ := h
        have hg := hl x (by simp)
        have hmir := s6.mirrored (fun _ _ => by
          show 8 ∣ x.1.width * bitsPerPixel x.1.kind.mode
          rcases hk x.1 hg with h | h | h
          · rw [h.1]; simpa [PnmKind.mode, bitsPerPixel] using (hwf x.1 hg).1.whole h.1
          · rw [h]; exact Nat.dvd_mul_left ..
          · rw [h]; exact Nat.dvd_trans (by decide) (Nat.dvd_mul_left 24 _))
        refine ⟨{ x.1 with pixels := o.bmp } :: back, .cons ?_ b1, .cons ⟨o.bmp, rfl, hmir⟩ b2⟩
        rcases hk x.1 hg with h | h
        · refine writePpm_bitmap { x.1 with pixels := o.bmp } o h.1 s1 s2 ?_ ?_ ?_
          · rw [s3, h.1]; rfl
          · rw [s4, h.1]; rfl
          · rw [if_pos (s5 h.1)]
        · have hw : PnmPage.withLine { x.1 with pixels := o.bmp } = { x.1 with pixels := o.bmp } := by
            unfold PnmPage.withLine
            rw [if_neg (by rcases h with h | h <;> (show ¬ x.1.kind = .pbm) <;> rw [h] <;> decide)]
          rw [hw]
          refine writePpm_plain { x.1 with pixels := o.bmp } o h s1 s2 s3 ?_ rfl
          rw [s4]
          rcases h with h | h <;> rw [h] <;> rfl
    obtain ⟨back, b1, b2⟩ := hstep _ outs (fun x hx => hgs hx) hall
    exact ⟨back, pictureFiles_expected pre _ outs b1 1, b2⟩
  unfold ppm2pwg
  simp only [h1]
  by_cases hfm : p.format = .URF
  · have hk' : ∀ g ∈ gs, g.kind = .pgm8 ∨ g.kind = .ppm8 := fun g hg => (hk g hg).resolve_left (fun h => h.2 hfm)
    obtain ⟨enc, outs, e1, e2, e3⟩ := C03_urf_document count hcount pages (by
      intro x hx
      obtain ⟨g, hg, e1, e2⟩ := hmem x hx
      rw [e1, e2]
      exact ⟨hfm, hurf hfm g hg, hf g hg, (hwf g hg).1.size⟩)
    rw [e1, if_pos hfm]
    have hbits : ∀ o ∈ outs, o.bits = 8 ∧ o.black = false := by
      unfold readRaster at e2
      split at e2
      · obtain ⟨_, _, e⟩ := Outcome.bind_eq_ok.mp e2; cases e
      · split at e2
        · split at e2
          · cases e2
          · obtain ⟨a, _, e⟩ := Outcome.bind_eq_ok.mp e2
            obtain ⟨b, hb, e⟩ := Outcome.bind_eq_ok.mp e
            cases e
            exact readUrfPages_bits hb
        · cases e2
    obtain ⟨back, b1, b2⟩ := finish outs (All2.imp_mem (all2_pages_idx (pt := pt) (p := p) e3 h2 h3 h4) (by
      rintro x hx o ho ⟨s1, s2, s3, s4⟩
      have hg := hgs hx
      refine ⟨s1, s2, ?_, ?_, ?_, s4⟩
      · rcases hk' x.1 hg with h | h <;> simp only [PnmPage.params, h, PnmKind.mode, bitsPerPixel, colors] at s3 ⊢ <;> omega
      · rw [(hbits o ho).1]; rcases hk' x.1 hg with h | h <;> rw [h] <;> rfl
      · intro h; rcases hk' x.1 hg with h' | h' <;> rw [h'] at h <;> cases h))
    refine ⟨_, back, rfl, ?_, b2⟩
    unfold pwg2ppm
    rw [e2]
    simp only [Outcome.bind_ok, Outcome.pure_eq, b1]
  · obtain ⟨enc, outs, e1, e2, e3⟩ := C02_pwg_document pages (by
      intro x hx
      obtain ⟨g, hg, e1, e2⟩ := hmem x hx
      rw [e1, e2]
      refine ⟨hfm, hf g hg, ?_, (hwf g hg).1.size⟩
      rcases hk g hg with ⟨h, _⟩ | h | h <;> simp [PnmPage.params, h, PnmKind.mode, bitsPerColor])
    rw [e1, if_neg hfm]
    obtain ⟨back, b1, b2⟩ := finish outs (All2.imp_mem (all2_pages_idx (pt := pt) (p := p) e3 h2 h3 h4) (by
      rintro x hx o ho ⟨s1, s2, s3, s4, s5, s6⟩
      exact ⟨s1, s2, s3, s4, fun h => s5.mpr (.inr (by simp [PnmPage.params, h, PnmKind.mode])), s6⟩))
    refine ⟨_, back, rfl, ?_, b2⟩
    unfold pwg2ppm
    rw [e2]
    simp only [Outcome.bind_ok, Outcome.pure_eq, b1]

/-- The hypotheses are met, and the second picture comes back in the opposite order. -/
example : (∀ g ∈ [plainPage, plainPage], g.Wf ∧ g.last = 10 ∧ g.pixels.head? ≠ some 35 ∧ g.kind = .pgm8 ∧
      Spec.Fits (g.params (fun _ _ => 1) { duplexMode := .TwoSidedLongEdge, backXformMode := .Rotated })) ∧
    ((ppm2pwg (fun _ _ => 1) 1 { format := .PWG, duplexMode := .TwoSidedLongEdge, backXformMode := .Rotated } (plainPage.bytes ++ plainPage.bytes)).map (pwg2ppm [])) =
      some (.ok (some (expectedFiles [] 1 [plainPage, { plainPage with pixels := [3, 2, 1] }]))) := by
  refine ⟨?_, by decide +kernel⟩
  intro g hg
  simp only [List.mem_cons, List.not_mem_nil, or_false, or_self] at hg
  subst hg
  exact ⟨by constructor <;> decide, rfl, by decide, rfl, by constructor <;> decide⟩

end Verif.Raster
