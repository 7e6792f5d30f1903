import Verif.Pdf.Model
import Verif.Pdf.DitherProps
import Verif.Raster.Standard
import Verif.Params.Props

/-! # Streaming a document -/

namespace Verif.Pdf

open Raster

namespace Spec

/-- The place of a page of the document on the paper (C50). -/
def place (lib : Library) (paper : Paper) (p : Params) (n : Nat) : Scale :=
  fixupScale (decide (p.format = .PWG ∨ p.format = .URF)) p.hwResW p.hwResH paper (lib.size n).1 (lib.size n).2

/-- What is drawn for an element of the page sequence: the page that it names, in its place; nothing for a filler (0). -/
def drawing (lib : Library) (paper : Paper) (p : Params) : Nat → Drawn
  | 0 => none
  | n + 1 => some (n + 1, place lib paper p (n + 1))

/-- White paper -/
def white (p : Params) : List Rgb := List.replicate (p.widthPx * p.heightPx) 0xffffff

/-- The picture for an element of the page sequence: white paper, with the page that it names drawn over it. -/
def picture (lib : Library) (paper : Paper) (p : Params) : Nat → List Rgb
  | 0 => white p
  | n + 1 => lib.draw (n + 1) (place lib paper p (n + 1)) (white p)

/-- The bytes for an element of the page sequence: its bitmap (C49, C62), encoded as page number `k` (C02, C03); or what cairo writes. -/
def bytes (lum : Luminosity) (lib : Library) (paper : Paper) (p : Params) (k : Nat) (drawn : List Drawn) (n : Nat) : Outcome Bytes :=
  match p.format with
  | .PWG | .URF => (copyRasterBuffer lum p (picture lib paper p n)).bind (bmpToPwg p k)
  | _ => .ok (lib.shown drawn)

/-- Every element of the page sequence can be drawn and made into bytes: element number `k + 1` of the output, `k + 2` and so on, after the pages in the
third argument were drawn. -/
inductive Pages (lum : Luminosity) (lib : Library) (paper : Paper) (p : Params) : Nat → List Drawn → List Nat → List Bytes → Prop where
  | nil {k drawn} : Pages lum lib paper p k drawn [] []
  | cons {k drawn n rest b bs} : lib.failed (drawn ++ [drawing lib paper p n]) = false →
      bytes lum lib paper p (k + 1) (drawn ++ [drawing lib paper p n]) n = .ok b →
      Pages lum lib paper p (k + 1) (drawn ++ [drawing lib paper p n]) rest bs → Pages lum lib paper p k drawn (n :: rest) (b :: bs)

/-- A block per page, and a report after each. -/
def reports (total : Nat) : Nat → List Bytes → List Event
  | _, [] => []
  | k, b :: bs => .write b true :: .progress (k + 1) total :: reports total (k + 1) bs

/-- The header goes with the first page. -/
def withHeader (header : Bytes) : List Bytes → List Bytes
  | [] => []
  | b :: bs => (header ++ b) :: bs

/-- A block, unless it is empty. -/
def final (b : Bytes) : List Event := if b = [] then [] else [.write b true]

/-- What is wanted when every block is taken: the header goes with the first page; what is left at the end (or the header, without pages) is a block of its own. -/
def ideal (header : Bytes) (total : Nat) (pages : List Bytes) (last : Bytes) : List Event :=
  reports total 0 (withHeader header pages) ++ final (if pages = [] then header ++ last else last)

/-- Follows the events until a block is not taken, which ends the run with an error; `result` is how it ends otherwise. -/
def follow (taken : List Bytes → Bool) (result : Outcome (Option Failure)) : List Bytes → List Event → Run
  | _, [] => { events := [], result := result }
  | done, .write b _ :: rest =>
    if taken (done ++ [b]) then
      let r := follow taken result (done ++ [b]) rest
      { events := .write b true :: r.events, result := r.result }
    else { events := [.write b false], result := .ok (some .write) }
  | done, .progress k n :: rest =>
    let r := follow taken result done rest
    { events := .progress k n :: r.events, result := r.result }

/-- The file header -/
def header (p : Params) (total : Nat) : Bytes :=
  match p.format with
  | .PWG => ascii "RaS2"
  | .URF => ascii "UNIRAST" ++ [0] ++ be32 total
  | _ => []

end Spec

theorem raster_decide (p : Params) : isRaster p = decide (p.format = .PWG ∨ p.format = .URF) := by
  unfold isRaster; cases p.format <;> rfl

theorem drawnFor_eq (lib : Library) (paper : Paper) (p : Params) (n : Nat) : drawnFor lib paper p n = Spec.drawing lib paper p n := by
  unfold drawnFor
  cases n with
  | zero => rfl
  | succ n => rw [if_pos (by omega), raster_decide]; rfl

theorem image_eq (lib : Library) (paper : Paper) (p : Params) (n : Nat) : image lib p (Spec.drawing lib paper p n) = Spec.picture lib paper p n := by
  cases n <;> rfl

theorem pageBytes_eq (lum : Luminosity) (lib : Library) (paper : Paper) (p : Params) (k : Nat) (drawn : List Drawn) (n : Nat) :
    pageBytes lum lib p k drawn (Spec.drawing lib paper p n) = Spec.bytes lum lib paper p k drawn n := by
  unfold pageBytes Spec.bytes
  rw [image_eq]
  cases hf : p.format <;> simp [isRaster, hf] <;> rfl

/-! ## The loop -/

theorem blocks_append (a b : List Event) : blocks (a ++ b) = blocks a ++ blocks b := by
  induction a with
  | nil => rfl
  | cons e a ih => cases e <;> simp [blocks, ih]

/-- The end of the run without pages left. -/
theorem loop_end {lum : Luminosity} {lib : Library} {taken : List Bytes → Bool} {paper : Paper} {p : Params} {total k : Nat} {drawn : List Drawn} {out : Bytes} {ev : List Event} :
    pagesLoop lum lib taken paper p total [] k drawn out ev =
      { events := ev ++ (Spec.follow taken (.ok none) (blocks ev) (Spec.final (out ++ (if isRaster p then [] else lib.finished drawn)))).events,
        result := (Spec.follow taken (.ok none) (blocks ev) (Spec.final (out ++ (if isRaster p then [] else lib.finished drawn)))).result } := by
  simp only [pagesLoop, Spec.final]
  generalize out ++ (if isRaster p then [] else lib.finished drawn) = b
  by_cases hb : b = []
  · subst hb; simp [Spec.follow]
  · rw [if_neg hb, if_pos (by rw [ne_eq, List.length_eq_zero_iff]; exact hb)]
    simp only [Spec.follow]
    split <;> rfl

/-- The events of the pages from number `k + 1` on, with bytes that are left. -/
def ahead (total : Nat) : Nat → Bytes → List Bytes → Bytes → List Event
  | _, out, [], last => Spec.final (out ++ last)
  | k, out, b :: bs, last => .write (out ++ b) true :: .progress (k + 1) total :: ahead total (k + 1) [] bs last

theorem loop_pages {lum : Luminosity} {lib : Library} {taken : List Bytes → Bool} {paper : Paper} {p : Params} {total k : Nat} {drawn : List Drawn} {seq : List Nat} {bs : List Bytes}
    (h : Spec.Pages lum lib paper p k drawn seq bs) (out : Bytes) (ev : List Event) :
    pagesLoop lum lib taken paper p total seq k drawn out ev =
      { events := ev ++ (Spec.follow taken (.ok none) (blocks ev) (ahead total k out bs (if isRaster p then [] else lib.finished (drawn ++ seq.map (Spec.drawing lib paper p))))).events,
        result := (Spec.follow taken (.ok none) (blocks ev) (ahead total k out bs (if isRaster p then [] else lib.finished (drawn ++ seq.map (Spec.drawing lib paper p))))).result } := by
  induction h generalizing out ev with
  | nil => rw [loop_end]; simp [ahead]
  | @cons k drawn n rest b bs hf hb _ ih =>
    simp only [pagesLoop, drawnFor_eq, pageBytes_eq, hf, hb, Bool.false_eq_true, if_false]
    simp only [ahead, Spec.follow]
    by_cases ht : taken (blocks ev ++ [out ++ b]) = true
    · rw [if_pos ht, if_pos ht, ih]
      simp only [blocks_append, blocks, List.append_assoc, List.map_cons, List.cons_append, List.nil_append]
    · rw [if_neg ht, if_neg ht]

theorem ahead_ideal (total : Nat) (header : Bytes) (bs : List Bytes) (last : Bytes) : ahead total 0 header bs last = Spec.ideal header total bs last := by
  have h : ∀ (bs : List Bytes) (k : Nat), ahead total k [] bs last = Spec.reports total k bs ++ Spec.final last := by
    intro bs
    induction bs with
    | nil => intro k; simp [ahead, Spec.reports]
    | cons b bs ih => intro k; simp [ahead, Spec.reports, ih]
  cases bs with
  | nil => simp [ahead, Spec.ideal, Spec.reports, Spec.withHeader]
  | cons b bs => simp [ahead, Spec.ideal, Spec.reports, Spec.withHeader, h]

/-- How a page that can not be drawn or encoded ends the run. -/
def PageFails (lum : Luminosity) (lib : Library) (paper : Paper) (p : Params) (k : Nat) (drawn : List Drawn) (n : Nat) (r : Outcome (Option Failure)) : Prop :=
  (lib.failed (drawn ++ [Spec.drawing lib paper p n]) = true ∧ r = .ok (some .cairo)) ∨
  (lib.failed (drawn ++ [Spec.drawing lib paper p n]) = false ∧
    ((∃ e, Spec.bytes lum lib paper p (k + 1) (drawn ++ [Spec.drawing lib paper p n]) n = .throws e ∧ r = .throws e) ∨
     (Spec.bytes lum lib paper p (k + 1) (drawn ++ [Spec.drawing lib paper p n]) n = .ub ∧ r = .ub) ∨
     (Spec.bytes lum lib paper p (k + 1) (drawn ++ [Spec.drawing lib paper p n]) n = .hang ∧ r = .hang)))

theorem loop_stop {lum : Luminosity} {lib : Library} {taken : List Bytes → Bool} {paper : Paper} {p : Params} {total k : Nat} {drawn : List Drawn} {pre post : List Nat} {bs : List Bytes} {n : Nat}
    {r : Outcome (Option Failure)} (h : Spec.Pages lum lib paper p k drawn pre bs) (hf : PageFails lum lib paper p (k + pre.length) (drawn ++ pre.map (Spec.drawing lib paper p)) n r)
    (out : Bytes) (ev : List Event) :
    let evs := Spec.reports total k (Spec.withHeader out bs)
    pagesLoop lum lib taken paper p total (pre ++ n :: post) k drawn out ev =
      { events := ev ++ (Spec.follow taken r (blocks ev) evs).events, result := (Spec.follow taken r (blocks ev) evs).result } := by
  induction h generalizing out ev with
  | nil =>
    simp only [List.map_nil, List.append_nil, List.length_nil, Nat.add_zero] at hf
    simp only [List.nil_append, pagesLoop, drawnFor_eq, pageBytes_eq, Spec.withHeader, Spec.reports, Spec.follow, List.append_nil]
    rcases hf with ⟨h1, rfl⟩ | ⟨h1, h2⟩
    · rw [if_pos h1]
    · simp only [h1, Bool.false_eq_true, if_false]
      rcases h2 with ⟨e, h2, rfl⟩ | ⟨h2, rfl⟩ | ⟨h2, rfl⟩ <;> rw [h2]
  | @cons k drawn m rest b bs hf' hb hrest ih =>
    simp only [List.cons_append, pagesLoop, drawnFor_eq, pageBytes_eq, hf', hb, Bool.false_eq_true, if_false, Spec.withHeader, Spec.reports, Spec.follow]
    by_cases ht : taken (blocks ev ++ [out ++ b]) = true
    · rw [if_pos ht, if_pos ht, ih (by
        rw [show k + (m :: rest).length = k + 1 + rest.length by simp; omega, List.map_cons, List.append_cons] at hf
        exact hf)]
      simp only [blocks_append, blocks, List.append_assoc]
      cases bs <;> simp [Spec.withHeader, Spec.reports, Spec.follow]
    · rw [if_neg ht, if_neg ht]

/-! ## The property -/

theorem header_eq {p : Params} {n : Nat} : Spec.header p n = match p.format with
    | .URF => urfFileHdr n
    | .PWG => pwgFileHdr
    | _ => [] := by
  unfold Spec.header urfFileHdr pwgFileHdr
  cases p.format <;> rfl

theorem start_eq {lum : Luminosity} {lib : Library} {taken : List Bytes → Bool} {paper : Paper} {p : Params} (hs : p.format = .URF → p.hwResW = p.hwResH) (hf : p.format ≠ .Invalid)
    {pages : Nat} (hp : lib.pages = some pages) {seq : List Nat} (hq : p.pageSequence pages = .ok seq) :
    pdfToPrintable lum lib taken paper p = pagesLoop lum lib taken paper p seq.length seq 0 [] (Spec.header p seq.length) [] := by
  unfold pdfToPrintable
  rw [if_neg (by rintro ⟨h1, h2⟩; exact h2 (hs h1)), header_eq]
  simp only [hp, hq]
  cases h : p.format <;> simp_all

/-- **C48.** For every document whose pages can be drawn and encoded, every page sequence, renderer and behaviour of the callback: the events are
those wanted (the header with the first page, a block per page in order, each followed by a report of progress from 1 up to the total, and what the surface
writes at the end), up to the first block that is not taken, which is the last event and makes the call end with an error. -/
theorem C48_stream {lum : Luminosity} {lib : Library} {paper : Paper} {p : Params} (hs : p.format = .URF → p.hwResW = p.hwResH) (hf : p.format ≠ .Invalid)
    {pages : Nat} (hp : lib.pages = some pages) {seq : List Nat} (hq : p.pageSequence pages = .ok seq) {bs : List Bytes} (hb : Spec.Pages lum lib paper p 0 [] seq bs)
    (taken : List Bytes → Bool) :
    pdfToPrintable lum lib taken paper p = Spec.follow taken (.ok none) []
      (Spec.ideal (Spec.header p seq.length) seq.length bs (if p.format = .PWG ∨ p.format = .URF then [] else lib.finished (seq.map (Spec.drawing lib paper p)))) := by
  rw [start_eq hs hf hp hq, loop_pages hb, ahead_ideal]
  have : (isRaster p = true) = (p.format = .PWG ∨ p.format = .URF) := by simp [isRaster]
  simp only [blocks, List.nil_append, this]

/-- **C48, documents with a page that can not be drawn or encoded.** The pages before it are written as above, and the call ends with that failure, unless a block is not taken before. -/
theorem C48_stop {lum : Luminosity} {lib : Library} {paper : Paper} {p : Params} (hs : p.format = .URF → p.hwResW = p.hwResH) (hf : p.format ≠ .Invalid)
    {pages : Nat} (hp : lib.pages = some pages) {pre post : List Nat} {n : Nat} (hq : p.pageSequence pages = .ok (pre ++ n :: post)) {bs : List Bytes}
    (hb : Spec.Pages lum lib paper p 0 [] pre bs) {r : Outcome (Option Failure)} (hn : PageFails lum lib paper p pre.length (pre.map (Spec.drawing lib paper p)) n r)
    (taken : List Bytes → Bool) :
    pdfToPrintable lum lib taken paper p = Spec.follow taken r [] (Spec.reports (pre ++ n :: post).length 0 (Spec.withHeader (Spec.header p (pre ++ n :: post).length) bs)) := by
  rw [start_eq hs hf hp hq, loop_stop (k := 0) hb (by rw [Nat.zero_add, List.nil_append]; exact hn)]
  simp only [blocks, List.nil_append]

/-- **C48, the first failed write.** Whatever happens, a block that is not taken is the last event, all blocks before it were taken, and the call ends with the error. -/
theorem C48_first_failure {lum : Luminosity} {lib : Library} {paper : Paper} {p : Params} {taken : List Bytes → Bool} {b : Bytes}
    (h : Event.write b false ∈ (pdfToPrintable lum lib taken paper p).events) :
    ∃ before, (pdfToPrintable lum lib taken paper p).events = before ++ [.write b false] ∧ (∀ b', Event.write b' false ∉ before) ∧
      (pdfToPrintable lum lib taken paper p).result = .ok (some .write) := by
  have loop : ∀ (seq : List Nat) (total k : Nat) (drawn : List Drawn) (out : Bytes) (ev : List Event), (∀ b', Event.write b' false ∉ ev) →
      Event.write b false ∈ (pagesLoop lum lib taken paper p total seq k drawn out ev).events →
      ∃ before, (pagesLoop lum lib taken paper p total seq k drawn out ev).events = before ++ [.write b false] ∧ (∀ b', Event.write b' false ∉ before) ∧
        (pagesLoop lum lib taken paper p total seq k drawn out ev).result = .ok (some .write) := by
    intro seq total
    induction seq with
    | nil =>
      intro k drawn out ev hev hm
      simp only [pagesLoop] at hm ⊢
      generalize out ++ (if isRaster p then [] else lib.finished drawn) = c at hm ⊢
      split at hm
      · rename_i h1
        rw [if_pos h1]
        split at hm
        · simp [hev] at hm
        · rename_i h2
          rw [if_neg h2]
          simp [hev] at hm
          exact ⟨ev, by rw [hm], hev, rfl⟩
      · exact absurd hm (hev b)
    | cons n rest ih =>
      intro k drawn out ev hev hm
      simp only [pagesLoop, drawnFor_eq, pageBytes_eq] at hm ⊢
      split at hm
      · exact absurd hm (hev b)
      · rename_i h1
        rw [if_neg h1]
        cases hpb : Spec.bytes lum lib paper p (k + 1) (drawn ++ [Spec.drawing lib paper p n]) n with
        | ok c =>
          simp only [hpb] at hm ⊢
          split at hm
          · rename_i h2
            rw [if_pos h2]
            exact ih _ _ _ _ (by intro b'; simp [hev]) hm
          · rename_i h2
            rw [if_neg h2]
            simp [hev] at hm
            exact ⟨ev, by rw [hm], hev, rfl⟩
        | throws e => simp only [hpb] at hm; exact absurd hm (hev b)
        | ub => simp only [hpb] at hm; exact absurd hm (hev b)
        | hang => simp only [hpb] at hm; exact absurd hm (hev b)
  unfold pdfToPrintable at h ⊢
  split at h
  · cases h
  · rename_i h1
    rw [if_neg h1]
    split at h
    · cases h
    · split at h
      · split at h
        · exact loop _ _ _ _ _ _ (by simp) h
        · exact loop _ _ _ _ _ _ (by simp) h
        · exact loop _ _ _ _ _ _ (by simp) h
        · exact loop _ _ _ _ _ _ (by simp) h
        · cases h
      · cases h
      · cases h
      · cases h

/-- What is refused before anything is written. -/
theorem C48_refused (lum : Luminosity) (lib : Library) (taken : List Bytes → Bool) (paper : Paper) (p : Params) :
    (p.format = .URF → p.hwResW ≠ p.hwResH → pdfToPrintable lum lib taken paper p = ⟨[], .ok (some .asymmetric)⟩) ∧
    ((p.format = .URF → p.hwResW = p.hwResH) → lib.pages = none → pdfToPrintable lum lib taken paper p = ⟨[], .ok (some .open)⟩) := by
  constructor
  · intro h1 h2; unfold pdfToPrintable; rw [if_pos ⟨h1, h2⟩]
  · intro h1 h2; unfold pdfToPrintable; rw [if_neg (by rintro ⟨a, b⟩; exact b (h1 a)), h2]

/-! ## Reading the result back -/

theorem eachPixel_length {data : List Rgb} {size n : Nat} (hd : data.length = size) {f : Rgb → Bytes} (hf : ∀ q, (f q).length = n) :
    ∃ bmp, eachPixel data size f = .ok bmp ∧ bmp.length = size * n := by
  refine ⟨(data.map f).flatten, ?_, ?_⟩
  · unfold eachPixel; rw [if_neg (by omega), List.take_of_length_le (by omega)]
  · subst hd
    induction data with
    | nil => simp
    | cons q qs ih => simp only [List.map_cons, List.flatten_cons, List.length_append, ih, hf, List.length_cons, Nat.succ_mul]; omega

/-- Images of the right size become bitmaps of the right size. -/
theorem copy_ok {lum : Luminosity} (hl : Spec.Sums lum.plus) {p : Params} (hb : Raster.Spec.bitsPerColor p.colorMode ≤ 8) (hh : p.heightPx ≤ 38347922) {data : List Rgb}
    (hd : data.length = p.widthPx * p.heightPx) :
    ∃ bmp, copyRasterBuffer lum p data = .ok bmp ∧ bmp.length = p.heightPx * Raster.Spec.rowBytes p.colorMode p.widthPx := by
  have bytes : ∀ (f : Rgb → Bytes) (n : Nat), (∀ q, (f q).length = n) → Raster.Spec.bitsPerPixel p.colorMode = 8 * n →
      ∃ bmp, eachPixel data (p.widthPx * p.heightPx) f = .ok bmp ∧ bmp.length = p.heightPx * Raster.Spec.rowBytes p.colorMode p.widthPx := by
    intro f n hf hbits
    obtain ⟨bmp, h1, h2⟩ := eachPixel_length hd hf
    refine ⟨bmp, h1, ?_⟩
    have : Raster.Spec.rowBytes p.colorMode p.widthPx = p.widthPx * n := by
      unfold Raster.Spec.rowBytes
      rw [hbits, show p.widthPx * (8 * n) = 8 * (p.widthPx * n) by rw [Nat.mul_left_comm]]
      omega
    rw [h2, this, Nat.mul_assoc, Nat.mul_left_comm]
  cases hm : p.colorMode with
  | sRGB24 => simp only [copyRasterBuffer, hm]; rw [hm] at bytes; exact bytes _ 3 (fun _ => rfl) rfl
  | CMYK32 => simp only [copyRasterBuffer, hm]; rw [hm] at bytes; exact bytes _ 4 (fun _ => rfl) rfl
  | Gray8 => simp only [copyRasterBuffer, hm]; rw [hm] at bytes; exact bytes _ 1 (fun _ => rfl) rfl
  | Black8 => simp only [copyRasterBuffer, hm]; rw [hm] at bytes; exact bytes _ 1 (fun _ => rfl) rfl
  | Gray1 =>
    obtain ⟨bmp, h1, h2, -⟩ := C49_partial hl (.inl hm) hd hh
    exact ⟨bmp, h1, by rw [h2, Nat.mul_comm]; simp [Raster.Spec.rowBytes, Raster.Spec.bitsPerPixel]⟩
  | Black1 =>
    obtain ⟨bmp, h1, h2, -⟩ := C49_partial hl (.inr hm) hd hh
    exact ⟨bmp, h1, by rw [h2, Nat.mul_comm]; simp [Raster.Spec.rowBytes, Raster.Spec.bitsPerPixel]⟩
  | sRGB48 => rw [hm] at hb; exact absurd hb (by decide)
  | Gray16 => rw [hm] at hb; exact absurd hb (by decide)

/-- There always is a page sequence. -/
theorem pageSequence_ok (p : Params) (n : Nat) : ∃ seq, p.pageSequence n = .ok seq := by
  by_cases h : 1 < p.copies
  · obtain ⟨_, _, seq, _, h2, _⟩ := C16_copies p n h
    exact ⟨seq, h2⟩
  · unfold Params.pageSequence
    simp only []
    rw [if_neg h]
    exact ⟨_, rfl⟩

/-- The pages with their numbers. -/
def numbered (p : Params) : Nat → List Bytes → List (Params × Nat × Bytes)
  | _, [] => []
  | k, b :: bs => (p, k + 1, b) :: numbered p (k + 1) bs

theorem numbered_mem {p : Params} {P : Params × Nat × Bytes → Prop} {bmps : List Bytes} (h : ∀ bmp ∈ bmps, ∀ k, P (p, k, bmp)) (k : Nat) : ∀ x ∈ numbered p k bmps, P x := by
  induction bmps generalizing k with
  | nil => intro x hx; cases hx
  | cons b bs ih =>
    intro x hx
    rcases List.mem_cons.1 hx with rfl | hx
    · exact h b (by simp) _
    · exact ih (fun bmp hb => h bmp (by simp [hb])) _ x hx

theorem pages_of_encode {lum : Luminosity} {lib : Library} {paper : Paper} {p : Params} (hr : isRaster p = true) (hf : ∀ d, lib.failed d = false) {seq : List Nat} {bmps : List Bytes}
    (h : All2 (fun n bmp => copyRasterBuffer lum p (Spec.picture lib paper p n) = .ok bmp) seq bmps) (k : Nat) (drawn : List Drawn) {enc : Bytes}
    (he : encodePages (numbered p k bmps) = .ok enc) : ∃ bs, Spec.Pages lum lib paper p k drawn seq bs ∧ bs.flatten = enc := by
  induction h generalizing k drawn enc with
  | nil => cases he; exact ⟨[], .nil, rfl⟩
  | @cons n bmp seq bmps h1 _ ih =>
    simp only [numbered, encodePages] at he
    obtain ⟨a, ha, he⟩ := Outcome.bind_eq_ok.1 he
    obtain ⟨b, hb, he⟩ := Outcome.bind_eq_ok.1 he
    cases he
    obtain ⟨bs, h2, h3⟩ := ih (k + 1) (drawn ++ [Spec.drawing lib paper p n]) hb
    refine ⟨a :: bs, .cons (hf _) ?_ h2, by rw [List.flatten_cons, h3]⟩
    rw [← pageBytes_eq]
    unfold pageBytes
    rw [if_pos hr, image_eq, h1]
    exact ha

theorem follow_all {taken : List Bytes → Bool} (ht : ∀ l, taken l = true) (r : Outcome (Option Failure)) (done : List Bytes) (evs : List Event) (hw : ∀ b, Event.write b false ∉ evs) :
    Spec.follow taken r done evs = ⟨evs, r⟩ := by
  induction evs generalizing done with
  | nil => rfl
  | cons e evs ih =>
    cases e with
    | write b t =>
      cases t with
      | false => exact absurd (List.mem_cons_self) (hw b)
      | true => simp only [Spec.follow, ht, if_true]; rw [ih _ (fun b h => hw b (List.mem_cons_of_mem _ h))]
    | progress k n => simp only [Spec.follow]; rw [ih _ (fun b h => hw b (List.mem_cons_of_mem _ h))]

theorem reports_true (total k : Nat) (bs : List Bytes) (b : Bytes) : Event.write b false ∉ Spec.reports total k bs := by
  induction bs generalizing k with
  | nil => simp [Spec.reports]
  | cons c bs ih => simp [Spec.reports, ih]

theorem ideal_true (header : Bytes) (total : Nat) (bs : List Bytes) (last b : Bytes) : Event.write b false ∉ Spec.ideal header total bs last := by
  unfold Spec.ideal Spec.final
  simp only [List.mem_append, reports_true, false_or]
  split <;> simp

theorem blocks_reports (total k : Nat) (bs : List Bytes) : blocks (Spec.reports total k bs) = bs := by
  induction bs generalizing k with
  | nil => rfl
  | cons c bs ih => simp [Spec.reports, blocks, ih]

theorem blocks_final (b : Bytes) : (blocks (Spec.final b)).flatten = b := by
  unfold Spec.final
  split
  · simp_all [blocks]
  · simp [blocks]

theorem blocks_ideal (header : Bytes) (total : Nat) (bs : List Bytes) (last : Bytes) : (blocks (Spec.ideal header total bs last)).flatten = header ++ bs.flatten ++ last := by
  unfold Spec.ideal
  rw [blocks_append, List.flatten_append, blocks_final, blocks_reports]
  cases bs <;> simp [Spec.withHeader]

namespace Spec

/-- The reports of progress -/
def progresses : List Event → List (Nat × Nat)
  | [] => []
  | .write _ _ :: rest => progresses rest
  | .progress k n :: rest => (k, n) :: progresses rest

end Spec

theorem progresses_append (a b : List Event) : Spec.progresses (a ++ b) = Spec.progresses a ++ Spec.progresses b := by
  induction a with
  | nil => rfl
  | cons e a ih => cases e <;> simp [Spec.progresses, ih]

theorem progresses_reports (total k : Nat) (bs : List Bytes) : Spec.progresses (Spec.reports total k bs) = (List.range bs.length).map (fun i => (k + i + 1, total)) := by
  induction bs generalizing k with
  | nil => rfl
  | cons c bs ih =>
    simp only [Spec.reports, Spec.progresses, ih, List.length_cons, List.range_succ_eq_map, List.map_cons, List.map_map]
    congr 1
    apply List.map_congr_left
    intro i _
    simp; omega

theorem progresses_ideal (header : Bytes) (total : Nat) (bs : List Bytes) (last : Bytes) :
    Spec.progresses (Spec.ideal header total bs last) = (List.range bs.length).map (fun i => (i + 1, total)) := by
  unfold Spec.ideal Spec.final
  rw [progresses_append, progresses_reports]
  have hl : (Spec.withHeader header bs).length = bs.length := by cases bs <;> rfl
  rw [hl]
  split <;> split <;> simp [Spec.progresses]

theorem pages_length {lum : Luminosity} {lib : Library} {paper : Paper} {p : Params} {k : Nat} {drawn : List Drawn} {seq : List Nat} {bs : List Bytes}
    (h : Spec.Pages lum lib paper p k drawn seq bs) : bs.length = seq.length := by
  induction h with
  | nil => rfl
  | cons _ _ _ ih => simp [ih]

/-- The bitmaps of the page sequence. -/
theorem bitmaps {lum : Luminosity} (hl : Spec.Sums lum.plus) {lib : Library} {paper : Paper} {p : Params} (hb : Raster.Spec.bitsPerColor p.colorMode ≤ 8) (hh : p.heightPx ≤ 38347922)
    (hdraw : ∀ n sc img, (lib.draw n sc img).length = img.length) (seq : List Nat) :
    ∃ bmps, All2 (fun n bmp => copyRasterBuffer lum p (Spec.picture lib paper p n) = .ok bmp) seq bmps ∧
      ∀ bmp ∈ bmps, bmp.length = p.heightPx * Raster.Spec.rowBytes p.colorMode p.widthPx := by
  induction seq with
  | nil => exact ⟨[], .nil, by simp⟩
  | cons n seq ih =>
    obtain ⟨bmps, h1, h2⟩ := ih
    have hlen : (Spec.picture lib paper p n).length = p.widthPx * p.heightPx := by
      cases n with
      | zero => simp [Spec.picture, Spec.white]
      | succ n => simp [Spec.picture, hdraw, Spec.white]
    obtain ⟨bmp, h3, h4⟩ := copy_ok hl hb hh hlen
    refine ⟨bmp :: bmps, .cons h3 h1, ?_⟩
    intro b hb'
    rcases List.mem_cons.1 hb' with rfl | hb'
    · exact h4
    · exact h2 b hb'

/-- **C48, the whole way, PWG.** For every document and page sequence, as long as cairo does not fail and every block is taken: the call succeeds, progress is reported for
1, 2, … up to the number of pages, and what was written is a PWG file by the standard, and one that `pwg2ppm` reads, with one page per element of the page sequence, in order: the
bitmap of the page it names (white for a filler), turned for the back side by its position. -/
theorem C48_pwg_document {lum : Luminosity} (hl : Spec.Sums lum.plus) {lib : Library} {paper : Paper} {p : Params} (hf : p.format = .PWG) (hb : Raster.Spec.bitsPerColor p.colorMode ≤ 8)
    (hfit : Raster.Spec.Fits p) (hh : p.heightPx ≤ 38347922) {pages : Nat} (hp : lib.pages = some pages) (hfail : ∀ d, lib.failed d = false)
    (hdraw : ∀ n sc img, (lib.draw n sc img).length = img.length) {taken : List Bytes → Bool} (ht : ∀ l, taken l = true) :
    ∃ seq bmps outs, p.pageSequence pages = .ok seq ∧ (pdfToPrintable lum lib taken paper p).result = .ok none ∧
      Spec.progresses (pdfToPrintable lum lib taken paper p).events = (List.range seq.length).map (fun i => (i + 1, seq.length)) ∧
      All2 (fun n bmp => copyRasterBuffer lum p (Spec.picture lib paper p n) = .ok bmp) seq bmps ∧
      readRaster (blocks (pdfToPrintable lum lib taken paper p).events).flatten = .ok (.pwg outs) ∧ All2 ShowsPwg (numbered p 0 bmps) outs ∧
      Raster.Spec.PwgDocument (numbered p 0 bmps) (blocks (pdfToPrintable lum lib taken paper p).events).flatten := by
  obtain ⟨seq, hseq⟩ := pageSequence_ok p pages
  obtain ⟨bmps, hb1, hb2⟩ := bitmaps hl (lib := lib) (paper := paper) hb hh hdraw seq
  obtain ⟨enc, outs, h1, h2, h3⟩ := C02_pwg_document (numbered p 0 bmps)
    (numbered_mem (fun bmp hm k => ⟨by rw [hf]; decide, hfit, hb, hb2 bmp hm⟩) 0)
  obtain ⟨bs, h4, h5⟩ := pages_of_encode (by simp [isRaster, hf]) hfail hb1 0 [] h1
  have hrun := C48_stream (by rw [hf]; intro h; cases h) (by rw [hf]; decide) hp hseq h4 taken
  rw [follow_all ht _ _ _ (ideal_true _ _ _ _)] at hrun
  obtain ⟨enc', d1, d2⟩ := C99_pwg (numbered p 0 bmps) (numbered_mem (fun bmp hm k => ⟨by rw [hf]; decide, hfit, hb2 bmp hm⟩) 0)
  rw [h1] at d1; cases d1
  have hfile : (blocks (pdfToPrintable lum lib taken paper p).events).flatten = pwgFileHdr ++ enc := by
    rw [hrun, blocks_ideal, h5, if_pos (.inl hf), List.append_nil]
    have : Spec.header p seq.length = pwgFileHdr := by unfold Spec.header; rw [hf]; rfl
    rw [this]
  refine ⟨seq, bmps, outs, hseq, by rw [hrun], ?_, hb1, by rw [hfile, h2], h3, by rw [hfile]; exact d2⟩
  rw [hrun, progresses_ideal, pages_length h4]

/-- **C48, the whole way, URF.** Likewise; the page count in the file's header is the number of pages. -/
theorem C48_urf_document {lum : Luminosity} (hl : Spec.Sums lum.plus) {lib : Library} {paper : Paper} {p : Params} (hf : p.format = .URF) (hb : Raster.Spec.bitsPerColor p.colorMode ≤ 8)
    (hu : Raster.Spec.UrfAble p) (hfit : Raster.Spec.Fits p) (hh : p.heightPx ≤ 38347922) {pages : Nat} (hp : lib.pages = some pages) (hfail : ∀ d, lib.failed d = false)
    (hdraw : ∀ n sc img, (lib.draw n sc img).length = img.length) {taken : List Bytes → Bool} (ht : ∀ l, taken l = true) {seq : List Nat} (hseq : p.pageSequence pages = .ok seq)
    (hn : seq.length < 2 ^ 32) :
    ∃ bmps outs, (pdfToPrintable lum lib taken paper p).result = .ok none ∧
      Spec.progresses (pdfToPrintable lum lib taken paper p).events = (List.range seq.length).map (fun i => (i + 1, seq.length)) ∧
      All2 (fun n bmp => copyRasterBuffer lum p (Spec.picture lib paper p n) = .ok bmp) seq bmps ∧
      readRaster (blocks (pdfToPrintable lum lib taken paper p).events).flatten = .ok (.urf seq.length outs) ∧ All2 ShowsUrf (numbered p 0 bmps) outs ∧
      Raster.Spec.UrfDocument seq.length (numbered p 0 bmps) (blocks (pdfToPrintable lum lib taken paper p).events).flatten := by
  obtain ⟨bmps, hb1, hb2⟩ := bitmaps hl (lib := lib) (paper := paper) hb hh hdraw seq
  obtain ⟨enc, outs, h1, h2, h3⟩ := C03_urf_document seq.length hn (numbered p 0 bmps)
    (numbered_mem (fun bmp hm k => ⟨hf, hu, hfit, hb2 bmp hm⟩) 0)
  obtain ⟨bs, h4, h5⟩ := pages_of_encode (by simp [isRaster, hf]) hfail hb1 0 [] h1
  have hrun := C48_stream (fun _ => hu.1) (by rw [hf]; decide) hp hseq h4 taken
  rw [follow_all ht _ _ _ (ideal_true _ _ _ _)] at hrun
  obtain ⟨enc', d1, d2⟩ := C99_urf seq.length hn (numbered p 0 bmps) (numbered_mem (fun bmp hm k => ⟨hf, hu, hfit, hb2 bmp hm⟩) 0)
  rw [h1] at d1; cases d1
  have hfile : (blocks (pdfToPrintable lum lib taken paper p).events).flatten = urfFileHdr seq.length ++ enc := by
    rw [hrun, blocks_ideal, h5, if_pos (.inr hf), List.append_nil]
    have : Spec.header p seq.length = urfFileHdr seq.length := by unfold Spec.header urfFileHdr; rw [hf]; simp [be8]
    rw [this]
  refine ⟨bmps, outs, by rw [hrun], ?_, hb1, by rw [hfile, h2], h3, by rw [hfile]; exact d2⟩
  rw [hrun, progresses_ideal, pages_length h4]

/-- a renderer that draws everything black, and a document of three pages -/
def exLibrary : Library :=
  { pages := some 3, size := fun _ => (595, 842), draw := fun _ _ img => img.map (fun _ => 0), failed := fun _ => false, shown := fun _ => [1], finished := fun d => [UInt8.ofNat d.length] }

/-- a small page -/
def exPage : Params := { format := .PWG, colorMode := .Gray8, widthPx := 2, heightPx := 1, duplexMode := .TwoSidedLongEdge, copies := 2 }

/-- the hypotheses of the theorems are met: three pages, a filler, and again -/
example : exPage.pageSequence 3 = .ok [1, 2, 3, 0, 1, 2, 3, 0] ∧ Raster.Spec.Fits exPage ∧ Raster.Spec.bitsPerColor exPage.colorMode ≤ 8 ∧
    (∀ n sc img, (exLibrary.draw n sc img).length = img.length) ∧ Spec.picture exLibrary {} exPage 0 = [0xffffff, 0xffffff] ∧
    Spec.picture exLibrary {} exPage 3 = [0, 0] :=
  ⟨by decide +kernel, ⟨by decide, by decide, by decide, by decide, by decide, by decide, by decide, by decide, by decide, by decide +kernel⟩, by decide,
    fun _ _ _ => List.length_map .., by decide +kernel, by decide +kernel⟩

/-- a callback that takes one block only -/
example : pdfToPrintable codeLuminosity exLibrary (fun l => decide (l.length < 2)) {} { exPage with format := .PDF, copies := 1 } =
    ⟨[.write [1] true, .progress 1 3, .write [1] false], .ok (some .write)⟩ := by decide +kernel

end Verif.Pdf
