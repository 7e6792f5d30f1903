import Verif.Life.Libraries

/-!
# The functions of poppler and cairo that `pdf_to_printable` calls, by name (C129)
-/

namespace Verif.Life.Libraries

open Verif.Life.Libraries.Spec

/-! ## Model -/

def ofCairo (fs : List String) : List Step := fs.map (.calls .cairo)

def ofPoppler (fs : List String) : List Step := fs.map (.calls .poppler)

/-- pdf2printable.cpp 151-166 -/
def prepareCalls (r : Pdf.Run) : List Step :=
  match r.kind with
  | .raster =>
    (if r.antiAlias then [] else ofCairo ["cairo_set_antialias", "cairo_font_options_create", "cairo_get_font_options", "cairo_font_options_set_antialias", "cairo_set_font_options",
      "cairo_font_options_destroy"]) ++ ofCairo ["cairo_save", "cairo_set_source_rgb", "cairo_paint", "cairo_restore"]
  | _ => []

/-- Lines 168-189, and whether the loop is left here -/
def blockCalls (p : Pdf.Page) : List Step × Bool :=
  if p.blank then ([], false)
  else
    match p.ends with
    | .throwsInBlock => (ofPoppler ["poppler_document_get_page", "poppler_page_get_size"], true)
    | _ =>
      (ofPoppler ["poppler_document_get_page", "poppler_page_get_size"] ++ ofCairo ["cairo_translate", "cairo_scale"] ++
        (if p.rotate then ofCairo ["cairo_matrix_init", "cairo_transform"] else []) ++ ofPoppler ["poppler_page_render_for_printing"], false)

/-- Lines 191-209, and whether the loop is left -/
def finishCalls (r : Pdf.Run) (p : Pdf.Page) : List Step × Bool :=
  match p.ends with
  | .cairoError => (ofCairo ["cairo_status", "cairo_status_to_string"], true)
  | e =>
    (ofCairo ["cairo_status", "cairo_surface_show_page"] ++ (if r.kind = .raster then ofCairo ["cairo_surface_flush", "cairo_image_surface_get_data"] else []),
      match e with
      | .throwsInRaster => r.kind = .raster
      | .notWritten | .throwsInProgress => true
      | _ => false)

/-- Lines 145-210 (`held`: there is a context already, which line 149 gives back), whether there is a context at the end, and whether the loop was left early -/
def loopCalls (r : Pdf.Run) : List Pdf.Page → Bool → List Step × Bool × Bool
  | [], held => ([], held, false)
  | p :: ps, held =>
    let start := ofCairo ["cairo_create"] ++ (if held then ofCairo ["cairo_destroy"] else []) ++ prepareCalls r
    let b := blockCalls p
    if b.2 then (start ++ b.1, true, true)
    else
      let f := finishCalls r p
      if f.2 then (start ++ b.1 ++ f.1, true, true)
      else
        let rest := loopCalls r ps true
        (start ++ b.1 ++ f.1 ++ rest.1, rest.2.1, rest.2.2)

/-- Lines 143-220, with the destructors of lines 70 and 71 (that of the document is one of glib, which is linked) -/
def drawCalls (r : Pdf.Run) : List Step :=
  let l := loopCalls r r.pages false
  ofCairo ["cairo_surface_set_fallback_resolution"] ++ l.1 ++ (if l.2.2 then [] else ofCairo ["cairo_surface_finish"]) ++ (if l.2.1 then ofCairo ["cairo_destroy"] else []) ++
    ofCairo ["cairo_surface_destroy"]

/-- Lines 66-220; `stdin`: line 79 -/
def pdfCalls (stdin : Bool) (r : Pdf.Run) : List Step :=
  ofPoppler [if stdin then "poppler_document_new_from_fd" else "poppler_document_new_from_file"] ++
  (if r.opens then
    ofPoppler ["poppler_document_get_n_pages"] ++
    (if r.seqThrows then []
    else
      match r.kind with
      | .raster => ofCairo ["cairo_image_surface_create"] ++ (if r.hdrThrows then ofCairo ["cairo_surface_destroy"] else drawCalls r)
      | .pdf => ofCairo ["cairo_pdf_surface_create_for_stream", "cairo_pdf_surface_restrict_to_version", "cairo_pdf_surface_set_metadata"] ++ drawCalls r
      | .ps => ofCairo ["cairo_ps_surface_create_for_stream", "cairo_ps_surface_restrict_to_level"] ++ drawCalls r
      | .other => [])
  else [])

/-- `pdf_to_printable` with `MADNESS`, pdf2printable.cpp 55-220 -/
def pdfByName (w : World) (stdin : Bool) (r : Pdf.Run) : Part :=
  if r.unequal then ([], none)
  else lib w .poppler popplerFuncs (lib w .cairo cairoFuncs (pdfCalls stdin r, none))

/-! ## Proofs -/

/-- A call of a function that libfuncs has -/
def Listed (s : Step) : Prop := ∃ f, (s = .calls .poppler f ∧ f ∈ popplerFuncs) ∨ (s = .calls .cairo f ∧ f ∈ cairoFuncs)

theorem listed_append {a b : List Step} (ha : ∀ s ∈ a, Listed s) (hb : ∀ s ∈ b, Listed s) : ∀ s ∈ a ++ b, Listed s :=
  fun s hs => (List.mem_append.mp hs).elim (ha s) (hb s)

theorem listed_cairo {fs : List String} (h : ∀ f ∈ fs, f ∈ cairoFuncs) : ∀ s ∈ ofCairo fs, Listed s := fun s hs => by
  obtain ⟨f, hf, rfl⟩ := List.mem_map.mp hs
  exact ⟨f, .inr ⟨rfl, h f hf⟩⟩

theorem listed_poppler {fs : List String} (h : ∀ f ∈ fs, f ∈ popplerFuncs) : ∀ s ∈ ofPoppler fs, Listed s := fun s hs => by
  obtain ⟨f, hf, rfl⟩ := List.mem_map.mp hs
  exact ⟨f, .inl ⟨rfl, h f hf⟩⟩

theorem listed_if {c : Prop} [Decidable c] {a b : List Step} (ha : ∀ s ∈ a, Listed s) (hb : ∀ s ∈ b, Listed s) : ∀ s ∈ (if c then a else b), Listed s := by
  split <;> assumption

theorem listed_nil : ∀ s ∈ ([] : List Step), Listed s := nofun

theorem listed_prepare (r : Pdf.Run) : ∀ s ∈ prepareCalls r, Listed s := by
  unfold prepareCalls
  split
  · exact listed_append (listed_if listed_nil (listed_cairo (by decide))) (listed_cairo (by decide))
  · exact listed_nil

theorem listed_block (p : Pdf.Page) : ∀ s ∈ (blockCalls p).1, Listed s := by
  unfold blockCalls
  split
  · exact listed_nil
  · split
    · exact listed_poppler (by decide)
    · exact listed_append (listed_append (listed_append (listed_poppler (by decide)) (listed_cairo (by decide))) (listed_if (listed_cairo (by decide)) listed_nil)) (listed_poppler (by decide))

theorem listed_finish (r : Pdf.Run) (p : Pdf.Page) : ∀ s ∈ (finishCalls r p).1, Listed s := by
  unfold finishCalls
  split
  · exact listed_cairo (by decide)
  · exact listed_append (listed_cairo (by decide)) (listed_if (listed_cairo (by decide)) listed_nil)

theorem listed_loop (r : Pdf.Run) : ∀ (ps : List Pdf.Page) (held : Bool), ∀ s ∈ (loopCalls r ps held).1, Listed s := by
  intro ps
  induction ps with
  | nil => intro held; exact listed_nil
  | cons p ps ih =>
    intro held
    have h0 : ∀ s ∈ ofCairo ["cairo_create"] ++ (if held then ofCairo ["cairo_destroy"] else []) ++ prepareCalls r, Listed s :=
      listed_append (listed_append (listed_cairo (by decide)) (listed_if (listed_cairo (by decide)) listed_nil)) (listed_prepare r)
    unfold loopCalls
    simp only
    split
    · exact listed_append h0 (listed_block p)
    · split
      · exact listed_append (listed_append h0 (listed_block p)) (listed_finish r p)
      · exact listed_append (listed_append (listed_append h0 (listed_block p)) (listed_finish r p)) (ih true)

theorem listed_draw (r : Pdf.Run) : ∀ s ∈ drawCalls r, Listed s :=
  listed_append (listed_append (listed_append (listed_append (listed_cairo (by decide)) (listed_loop r _ _)) (listed_if listed_nil (listed_cairo (by decide)))) (listed_if (listed_cairo (by decide)) listed_nil))
    (listed_cairo (by decide))

theorem listed_pdf (stdin : Bool) (r : Pdf.Run) : ∀ s ∈ pdfCalls stdin r, Listed s := by
  refine listed_append (listed_poppler (by cases stdin <;> decide)) (listed_if (listed_append (listed_poppler (by decide)) (listed_if listed_nil ?_)) listed_nil)
  split
  · exact listed_append (listed_cairo (by decide)) (listed_if (listed_cairo (by decide)) (listed_draw r))
  · exact listed_append (listed_cairo (by decide)) (listed_draw r)
  · exact listed_append (listed_cairo (by decide)) (listed_draw r)
  · exact listed_nil

theorem split_mid {α : Type} {A body B before after : List α} {s : α} (hA : s ∉ A) (hB : s ∉ B) (e : A ++ body ++ B = before ++ s :: after) : ∃ x y, body = x ++ s :: y ∧ before = A ++ x := by
  rw [List.append_assoc] at e
  rcases List.append_eq_append_iff.mp e with ⟨z, rfl, h2⟩ | ⟨z, h1, h2⟩
  · rcases List.append_eq_append_iff.mp h2 with ⟨u, rfl, h4⟩ | ⟨u, h3, h4⟩
    · exact absurd (h4 ▸ by simp) hB
    · cases u with
      | nil => exact absurd (by rw [List.nil_append] at h4; rw [← h4]; exact List.mem_cons_self) hB
      | cons v u =>
        simp only [List.cons_append, List.cons.injEq] at h4
        obtain ⟨rfl, -⟩ := h4
        exact ⟨z, u, h3, rfl⟩
  · cases z with
    | nil =>
      rw [List.append_nil] at h1
      subst h1
      rw [List.nil_append] at h2
      cases body with
      | nil => exact absurd (by rw [List.nil_append] at h2; rw [← h2]; exact List.mem_cons_self) hB
      | cons v u =>
        simp only [List.cons_append, List.cons.injEq] at h2
        obtain ⟨rfl, -⟩ := h2
        exact ⟨[], u, rfl, by simp⟩
    | cons v z =>
      simp only [List.cons_append, List.cons.injEq] at h2
      obtain ⟨rfl, -⟩ := h2
      exact absurd (by rw [h1]; simp) hA

theorem found_at {w : World} {pre mid x y : List Step} {l : Lib} {f : String} {n : Lib → Nat} (hp : exec w pre closed = .ok n) (hk : Keeps w mid (more l n)) (hm : mid = x ++ y) (hf : .finds l f ∈ x) :
    ∃ a b, pre ++ .opens l :: x = a ++ .finds l f :: b ∧ ∀ c d, b = c ++ d → ∃ n', exec w (a ++ .finds l f :: c) closed = .ok n' ∧ n' l ≠ 0 := by
  obtain ⟨x1, x2, rfl⟩ := List.append_of_mem hf
  refine ⟨pre ++ .opens l :: x1, x2, by simp, fun c d e => ?_⟩
  subst e
  obtain ⟨m, h1, h2⟩ := hk.2 (x1 ++ .finds l f :: c) (d ++ y) (by rw [hm]; simp)
  refine ⟨m, ?_, ?_⟩
  · rw [List.append_assoc, exec_before _ hp]
    exact h1
  · have := h2 l
    simp only [more, if_true] at this
    omega

/-! ## Theorems -/

/-- **C129, for PDF files, by function.** If poppler and cairo, where they are there, have the functions that are looked up in them, then whatever the run meets, all calls are defined, and of
functions that were looked up in a library that has been open since. -/
theorem C129_pdf_functions_partial (w : World) (stdin : Bool) (r : Pdf.Run) (hp : ∀ has, w .poppler = some has → ∀ f ∈ popplerFuncs, has f = true)
    (hc : ∀ has, w .cairo = some has → ∀ f ∈ cairoFuncs, has f = true) : Sound w (pdfByName w stdin r).1 ∧ Found w (pdfByName w stdin r).1 := by
  unfold pdfByName
  by_cases hu : r.unequal = true
  · rw [if_pos hu]; exact ⟨sound_of_exec rfl, fun a l f b h => by simp at h⟩
  · rw [if_neg hu]
    cases h1 : w .poppler with
    | none => simp only [lib, h1]; exact ⟨sound_of_exec rfl, fun a l f b h => by simp at h⟩
    | some hasP =>
      have finds : ∀ (l : Lib) (fs : List String) (n : Lib → Nat), n l ≠ 0 → Keeps w (fs.map (.finds l)) n := fun l fs n hn => Keeps.all _ fun s hs => by
        obtain ⟨f, -, rfl⟩ := List.mem_map.mp hs
        simp [exec, hn]
      have hbody : ∀ hasC, w .cairo = some hasC → Keeps w (pdfCalls stdin r) (more .cairo (more .poppler closed)) := fun hasC h2 => Keeps.all _ fun s hs => by
        obtain ⟨f, ⟨rfl, hf⟩ | ⟨rfl, hf⟩⟩ := listed_pdf stdin r s hs
        · simp [exec, h1, hp hasP h1 f hf, more]
        · simp [exec, h2, hc hasC h2 f hf, more]
      have hinner : Keeps w (lib w .cairo cairoFuncs (pdfCalls stdin r, none)).1 (more .poppler closed) := Keeps.lib fun h => by
        obtain ⟨hasC, h2⟩ := Option.isSome_iff_exists.mp h
        exact hbody hasC h2
      refine ⟨sound_of_exec (Keeps.lib fun _ => hinner).1, ?_⟩
      cases h2 : w .cairo with
      | none =>
        simp only [lib, h1, h2]
        intro a l f b h
        exfalso
        have : .calls l f ∈ Step.opens Lib.poppler :: (List.map (.finds .poppler) popplerFuncs ++ [] ++ [.closes .poppler]) := by rw [h]; simp
        simp at this
      | some hasC =>
        have hin : (lib w .cairo cairoFuncs (pdfCalls stdin r, none)).1 = .opens .cairo :: (cairoFuncs.map (.finds .cairo) ++ pdfCalls stdin r ++ [.closes .cairo]) := by simp only [lib, h2]
        have hout : (lib w .poppler popplerFuncs (lib w .cairo cairoFuncs (pdfCalls stdin r, none))).1 =
            (.opens .poppler :: (popplerFuncs.map (.finds .poppler) ++ .opens .cairo :: cairoFuncs.map (.finds .cairo))) ++ pdfCalls stdin r ++ [.closes .cairo, .closes .poppler] := by
          simp only [lib, h1, h2]; simp
        intro before l f after e
        rw [hout] at e
        obtain ⟨x, y, e1, rfl⟩ := split_mid (by simp) (by simp) e
        have hin' : .calls l f ∈ pdfCalls stdin r := by rw [e1]; simp
        obtain ⟨g, ⟨e2, hf⟩ | ⟨e2, hf⟩⟩ := listed_pdf stdin r _ hin'
        · cases e2
          have := found_at (w := w) (pre := []) (l := .poppler) (f := f) (n := closed) (mid := popplerFuncs.map (.finds .poppler) ++ (lib w .cairo cairoFuncs (pdfCalls stdin r, none)).1)
            (x := popplerFuncs.map (.finds .poppler) ++ .opens .cairo :: cairoFuncs.map (.finds .cairo) ++ x) (y := .calls .poppler f :: y ++ [.closes .cairo])
            rfl (Keeps.append (finds _ _ _ (by simp [more])) hinner) (by rw [hin, e1]; simp) (by simp [hf])
          simpa using this
        · cases e2
          have := found_at (w := w) (pre := .opens .poppler :: popplerFuncs.map (.finds .poppler)) (l := .cairo) (f := f) (n := more .poppler closed)
            (mid := cairoFuncs.map (.finds .cairo) ++ pdfCalls stdin r)
            (x := cairoFuncs.map (.finds .cairo) ++ x) (y := .calls .cairo f :: y)
            (finds .poppler popplerFuncs (more .poppler closed) (by simp [more])).1 (Keeps.append (finds _ _ _ (by simp [more])) (hbody hasC h2)) (by rw [e1]; simp) (by simp [hf])
          simpa using this

/-- A cairo before 1.16: without `cairo_pdf_surface_set_metadata` -/
def older (l : Lib) : Option (String → Bool) :=
  match l with
  | .poppler => some (popplerFuncs.contains ·)
  | .cairo => some (fun f => cairoFuncs.contains f && f != "cairo_pdf_surface_set_metadata")
  | .jpeg => none

/-- Poppler and a later cairo -/
def later (l : Lib) : Option (String → Bool) :=
  match l with
  | .poppler => some (popplerFuncs.contains ·)
  | .cairo => some (cairoFuncs.contains ·)
  | .jpeg => none

example : (∀ has, later .poppler = some has → ∀ f ∈ popplerFuncs, has f = true) ∧ (∀ has, later .cairo = some has → ∀ f ∈ cairoFuncs, has f = true) := by
  refine ⟨fun has h f hf => ?_, fun has h f hf => ?_⟩ <;> cases h <;> simpa using hf

/-- **C129 is false with an older cairo.** A document that is to become a PDF file is one with which a null pointer is called. -/
theorem C129_older_false : ¬ ∀ (w : World) (stdin : Bool) (r : Pdf.Run), Sound w (pdfByName w stdin r).1 := by
  intro h
  refine exec_lacking (w := older) (l := .cairo) (f := "cairo_pdf_surface_set_metadata") (by decide +kernel) _ _ _ ?_
    (h older false ⟨false, true, false, .pdf, false, true, [⟨false, false, false, .goes⟩]⟩).1
  decide +kernel

end Verif.Life.Libraries
