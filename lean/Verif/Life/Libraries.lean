import Verif.Core.Outcome
import Verif.Life.Pdf

/-!
# Libraries that are loaded while the program runs: lib/madness.h, lib/libfuncs, lib/libfuncs_jpeg (C129)

The builds with `MADNESS` (Makefile 19-23) look the functions of poppler, cairo and libjpeg up when they are needed. `dlopen` counts how often a library is open; the code of a library may only
be run while it is open at least once.
-/

namespace Verif.Life.Libraries

inductive Lib where
  | poppler | cairo | jpeg
  deriving DecidableEq, Repr

/-- What is done with libraries -/
inductive Step where
  /-- `dlopen` -/
  | opens (l : Lib)
  /-- `dlclose` -/
  | closes (l : Lib)
  /-- `dlsym` -/
  | finds (l : Lib) (f : String)
  /-- the function is called that was found under this name -/
  | calls (l : Lib) (f : String)
  /-- some code of the library is run -/
  | runs (l : Lib)
  deriving DecidableEq, Repr

/-- What is there: none where a library cannot be loaded, or else the functions it has. -/
abbrev World := Lib → Option (String → Bool)

/-! ## Specification -/

namespace Spec

/-- What the steps do to the number of times each library is open (dlopen(3)). No behaviour is defined for closing or asking a library that is not open, for running its code, and for calling
a function it does not have, for which `dlsym` answers null. -/
def exec (w : World) : List Step → (Lib → Nat) → Outcome (Lib → Nat)
  | [], n => .ok n
  | .opens l :: t, n => exec w t (fun x => if x = l then n x + 1 else n x)
  | .closes l :: t, n => if n l = 0 then .ub else exec w t (fun x => if x = l then n x - 1 else n x)
  | .finds l _ :: t, n => if n l = 0 then .ub else exec w t n
  | .calls l f :: t, n => if n l = 0 ∨ (w l).any (· f) = false then .ub else exec w t n
  | .runs l :: t, n => if n l = 0 then .ub else exec w t n

/-- No library is open. -/
def closed : Lib → Nat := fun _ => 0

/-- All is defined, at whatever point the program ends (libjpeg calls `exit` for errors), and at the end every library is closed as often as it was opened. -/
def Sound (w : World) (t : List Step) : Prop :=
  exec w t closed = .ok closed ∧ ∀ first rest, t = first ++ rest → ∃ n, exec w first closed = .ok n

/-- Every function that is called was looked up before, and since then its library has always been open. -/
def Found (w : World) (t : List Step) : Prop :=
  ∀ before l f after, t = before ++ .calls l f :: after →
    ∃ a b, before = a ++ .finds l f :: b ∧ ∀ c d, b = c ++ d → ∃ n, exec w (a ++ .finds l f :: c) closed = .ok n ∧ n l ≠ 0

end Spec

open Verif.Life.Libraries.Spec

/-! ## Model -/

/-- The names of the files, libfuncs 1 and 9, libfuncs_jpeg 1, baselinify.cpp 14 -/
def file : Lib → String
  | .poppler => "libpoppler-glib.so.8"
  | .cairo => "libcairo.so.2"
  | .jpeg => "libjpeg.so.62"

/-- What a part of the program does, and the exception that ends it -/
abbrev Part := List Step × Option String

/-- One part after the other -/
def andThen (a b : Part) : Part := if a.2.isSome then a else (a.1 ++ b.1, b.2)

/-- `LIB` and its lines of `FUNC`, madness.h 29-34, and the rest of the block in which they stand: the destructor (19-22) is run at the end of it, however it ends. Other variables of the block
are declared later, so that their destructors are run before. -/
def lib (w : World) (l : Lib) (fs : List String) (rest : Part) : Part :=
  match w l with
  | some _ => (.opens l :: (fs.map (.finds l) ++ rest.1 ++ [.closes l]), rest.2)
  | none => ([], some ("failed to load library:" ++ file l))

/-- libfuncs 2-7 -/
def popplerFuncs : List String :=
  ["poppler_document_new_from_file", "poppler_document_new_from_fd", "poppler_document_get_n_pages", "poppler_document_get_page", "poppler_page_get_size",
   "poppler_page_render_for_printing"]

/-- libfuncs 10-39 -/
def cairoFuncs : List String :=
  ["cairo_ps_surface_create_for_stream", "cairo_ps_surface_restrict_to_level", "cairo_image_surface_create", "cairo_pdf_surface_create_for_stream",
   "cairo_pdf_surface_restrict_to_version", "cairo_pdf_surface_set_metadata", "cairo_surface_set_fallback_resolution", "cairo_translate", "cairo_scale", "cairo_status",
   "cairo_status_to_string", "cairo_destroy", "cairo_surface_show_page", "cairo_create", "cairo_matrix_init", "cairo_transform", "cairo_save", "cairo_set_source_rgb", "cairo_paint",
   "cairo_restore", "cairo_surface_flush", "cairo_image_surface_get_data", "cairo_surface_finish", "cairo_surface_destroy", "cairo_set_antialias", "cairo_font_options_create",
   "cairo_get_font_options", "cairo_font_options_set_antialias", "cairo_set_font_options", "cairo_font_options_destroy"]

/-- libfuncs_jpeg 2-14 -/
def jpegFuncs : List String :=
  ["jpeg_read_header", "jpeg_read_coefficients", "jpeg_copy_critical_parameters", "jpeg_write_coefficients", "jpeg_finish_compress", "jpeg_destroy_compress", "jpeg_finish_decompress",
   "jpeg_destroy_decompress", "jpeg_CreateCompress", "jpeg_CreateDecompress", "jpeg_std_error", "jpeg_save_markers", "jpeg_write_marker"]

/-- Whose code is run for an object. That of the document and of the pages is in poppler, also when `g_object_unref` gives them back; errors are those of glib, which is linked. -/
def libOf : Pdf.Obj → Option Lib
  | .doc | .page _ => some .poppler
  | .surface | .cairo _ | .font _ => some .cairo
  | .err => none

/-- Code of a library that is run for an event of `Life/Pdf.lean` -/
def touch (e : Ev Pdf.Obj) : List Step :=
  match libOf e.obj with
  | some l => [.runs l]
  | none => []

/-- `pdf_to_printable` with `MADNESS`, pdf2printable.cpp 55-220: lines 58-61 come before the libraries are loaded, all the rest after that. Which function is called is left out here. -/
def pdfToPrintable (w : World) (r : Pdf.Run) : Part :=
  if r.unequal then ([], none)
  else lib w .poppler popplerFuncs (lib w .cairo cairoFuncs ((Pdf.trace r).flatMap touch, none))

/-- What libjpeg meets: the number of markers, and how often it calls `resync_to_restart` while it reads -/
structure Picture where
  markers : Nat
  resyncs : Nat

/-- The constructor of `bts_source_mgr`, baselinify.cpp 11-26: the library is closed again at the end of it, and a pointer into it is kept. -/
def sourceMgr (w : World) : Part := lib w .jpeg ["jpeg_resync_to_restart"] ([], none)

/-- `baselinify` with `MADNESS`, baselinify.cpp 80-127. `jpeg_create_compress` and `jpeg_create_decompress` are macros for the functions with capitals. -/
def baselinify (w : World) (p : Picture) : Part :=
  lib w .jpeg jpegFuncs
    (andThen (["jpeg_std_error", "jpeg_CreateDecompress", "jpeg_std_error", "jpeg_CreateCompress"].map (.calls .jpeg), none)
      (andThen (sourceMgr w)
        ((["jpeg_save_markers", "jpeg_save_markers", "jpeg_read_header", "jpeg_read_coefficients"] ++ List.replicate p.resyncs "jpeg_resync_to_restart" ++
          ["jpeg_copy_critical_parameters", "jpeg_write_coefficients"] ++ List.replicate p.markers "jpeg_write_marker" ++
          ["jpeg_finish_compress", "jpeg_destroy_compress", "jpeg_finish_decompress", "jpeg_destroy_decompress"]).map (.calls .jpeg), none)))

/-! ## Proofs -/

theorem exec_append (w : World) (b : List Step) : ∀ (a : List Step) (n : Lib → Nat), exec w (a ++ b) n = (exec w a n).bind (exec w b) := by
  intro a
  induction a with
  | nil => intro n; rfl
  | cons s a ih =>
    intro n
    cases s with
    | opens l => simp only [List.cons_append, exec]; exact ih _
    | closes l =>
      simp only [List.cons_append, exec]
      split
      · rfl
      · exact ih _
    | finds l f =>
      simp only [List.cons_append, exec]
      split
      · rfl
      · exact ih _
    | calls l f =>
      simp only [List.cons_append, exec]
      split
      · rfl
      · exact ih _
    | runs l =>
      simp only [List.cons_append, exec]
      split
      · rfl
      · exact ih _

theorem exec_before {w : World} {a : List Step} {n m : Lib → Nat} (b : List Step) (h : exec w a n = .ok m) : exec w (a ++ b) n = exec w b m := by
  rw [exec_append, h]; rfl

theorem sound_of_exec {w : World} {t : List Step} (h : exec w t closed = .ok closed) : Sound w t := by
  refine ⟨h, fun first rest e => ?_⟩
  rw [e, exec_append] at h
  cases hf : exec w first closed with
  | ok n => exact ⟨n, rfl⟩
  | throws x => rw [hf] at h; cases h
  | ub => rw [hf] at h; cases h
  | hang => rw [hf] at h; cases h

/-- Steps that leave all as it is -/
theorem exec_same {w : World} {n : Lib → Nat} : ∀ (t : List Step), (∀ s ∈ t, exec w [s] n = .ok n) → exec w t n = .ok n := by
  intro t
  induction t with
  | nil => intro _; rfl
  | cons s t ih =>
    intro h
    have : s :: t = [s] ++ t := rfl
    rw [this, exec_before t (h s List.mem_cons_self)]
    exact ih fun x hx => h x (List.mem_cons_of_mem _ hx)

/-- A library for a part of the program -/
theorem exec_lib {w : World} {l : Lib} {fs : List String} {rest : Part} {n : Lib → Nat} (h : (w l).isSome → exec w rest.1 (fun x => if x = l then n x + 1 else n x) = .ok (fun x => if x = l then n x + 1 else n x)) :
    exec w (lib w l fs rest).1 n = .ok n := by
  unfold lib
  split
  · rename_i x hx
    have h := h (by rw [hx]; rfl)
    show exec w (fs.map (.finds l) ++ rest.1 ++ [.closes l]) (fun x => if x = l then n x + 1 else n x) = _
    have h1 : exec w (fs.map (.finds l)) (fun x => if x = l then n x + 1 else n x) = .ok (fun x => if x = l then n x + 1 else n x) := by
      refine exec_same _ fun s hs => ?_
      obtain ⟨f, -, rfl⟩ := List.mem_map.mp hs
      simp [exec]
    rw [List.append_assoc, exec_before _ h1, exec_before _ h]
    simp only [exec, if_true, Nat.add_one_ne_zero, if_false]
    refine congrArg _ (funext fun x => ?_)
    by_cases e : x = l
    · simp [e]
    · simp [e]
  · rfl

/-- The steps leave all as it is, and on the way no library is open less often -/
def Keeps (w : World) (t : List Step) (n : Lib → Nat) : Prop := exec w t n = .ok n ∧ ∀ c d, t = c ++ d → ∃ m, exec w c n = .ok m ∧ ∀ l, n l ≤ m l

theorem Keeps.nil (w : World) (n : Lib → Nat) : Keeps w [] n :=
  ⟨rfl, fun c d h => by obtain ⟨rfl, rfl⟩ := List.append_eq_nil_iff.mp h.symm; exact ⟨n, rfl, fun _ => Nat.le_refl _⟩⟩

theorem Keeps.append {w : World} {a b : List Step} {n : Lib → Nat} (ha : Keeps w a n) (hb : Keeps w b n) : Keeps w (a ++ b) n := by
  refine ⟨by rw [exec_before _ ha.1, hb.1], fun c d h => ?_⟩
  rcases List.append_eq_append_iff.mp h with ⟨x, rfl, h2⟩ | ⟨x, h1, -⟩
  · obtain ⟨m, h3, h4⟩ := hb.2 x d h2
    exact ⟨m, by rw [exec_before _ ha.1, h3], h4⟩
  · exact ha.2 c x h1

theorem Keeps.one {w : World} {s : Step} {n : Lib → Nat} (h : exec w [s] n = .ok n) : Keeps w [s] n := by
  refine ⟨h, fun c d e => ?_⟩
  cases c with
  | nil => exact ⟨n, rfl, fun _ => Nat.le_refl _⟩
  | cons x c =>
    simp only [List.cons_append, List.cons.injEq] at e
    obtain ⟨rfl, e⟩ := e
    obtain ⟨rfl, -⟩ := List.append_eq_nil_iff.mp e.symm
    exact ⟨n, h, fun _ => Nat.le_refl _⟩

theorem Keeps.all {w : World} {n : Lib → Nat} : ∀ (t : List Step), (∀ s ∈ t, exec w [s] n = .ok n) → Keeps w t n := by
  intro t
  induction t with
  | nil => intro _; exact Keeps.nil w n
  | cons s t ih =>
    intro h
    exact Keeps.append (Keeps.one (h s List.mem_cons_self)) (ih fun x hx => h x (List.mem_cons_of_mem _ hx))

/-- open once more -/
def more (l : Lib) (n : Lib → Nat) : Lib → Nat := fun x => if x = l then n x + 1 else n x

theorem exec_first {w : World} {l : Lib} {mid : List Step} {n : Lib → Nat} (h : Keeps w mid (more l n)) {c d : List Step} (e : .opens l :: (mid ++ [.closes l]) = c ++ d) :
    c = [] ∨ c = .opens l :: (mid ++ [.closes l]) ∨ ∃ x y, c = .opens l :: x ∧ mid = x ++ y ∧ ∃ m, exec w c n = .ok m ∧ ∀ l', more l n l' ≤ m l' := by
  cases c with
  | nil => exact .inl rfl
  | cons x c =>
    simp only [List.cons_append, List.cons.injEq] at e
    obtain ⟨rfl, e⟩ := e
    rcases List.append_eq_append_iff.mp e with ⟨z, rfl, h2⟩ | ⟨z, h1, -⟩
    · cases z with
      | nil =>
        right; right
        obtain ⟨m, h3, h4⟩ := h.2 mid [] (by simp)
        exact ⟨mid, [], by simp, by simp, m, by rw [List.append_nil]; exact h3, h4⟩
      | cons y z =>
        simp only [List.cons_append, List.cons.injEq] at h2
        obtain ⟨rfl, h2⟩ := h2
        obtain ⟨rfl, -⟩ := List.append_eq_nil_iff.mp h2.symm
        exact .inr (.inl rfl)
    · right; right
      obtain ⟨m, h3, h4⟩ := h.2 c z h1
      exact ⟨c, z, rfl, h1, m, h3, h4⟩

theorem le_more (l : Lib) (n : Lib → Nat) (x : Lib) : n x ≤ more l n x := by unfold more; split <;> omega

theorem Keeps.lib {w : World} {l : Lib} {fs : List String} {rest : Part} {n : Lib → Nat} (h : (w l).isSome → Keeps w rest.1 (more l n)) : Keeps w (lib w l fs rest).1 n := by
  refine ⟨exec_lib fun hs => (h hs).1, ?_⟩
  have hall := exec_lib (w := w) (l := l) (fs := fs) (rest := rest) (n := n) fun hs => (h hs).1
  unfold Libraries.lib at hall ⊢
  split
  · rename_i x hx
    rw [hx] at hall
    have hk : Keeps w (fs.map (.finds l) ++ rest.1) (more l n) := by
      refine Keeps.append (Keeps.all _ fun s hs => ?_) (h (by rw [hx]; rfl))
      obtain ⟨f, -, rfl⟩ := List.mem_map.mp hs
      simp [exec, more]
    intro c d e
    rcases exec_first hk e with rfl | h1 | ⟨-, -, -, -, m, h1, h2⟩
    · exact ⟨n, rfl, fun _ => Nat.le_refl _⟩
    · rw [h1]; exact ⟨n, hall, fun _ => Nat.le_refl _⟩
    · exact ⟨m, h1, fun x => Nat.le_trans (le_more l n x) (h2 x)⟩
  · exact (Keeps.nil w n).2

/-! ## Theorems -/

/-- **C129, for PDF files.** Whatever poppler and cairo answer, wherever the function ends, and whichever libraries are there: code of a library is only run while it is loaded (also when
the last objects are given back), each is closed as often as it was opened, and if one of them is missing an exception with its name comes before anything else was done. -/
theorem C129_pdf (w : World) (r : Pdf.Run) :
    Sound w (pdfToPrintable w r).1 ∧
    ((pdfToPrintable w r).2 = none ↔ r.unequal = true ∨ ((w .poppler).isSome ∧ (w .cairo).isSome)) ∧
    (∀ x, (pdfToPrintable w r).2 = some x → (∀ l, .runs l ∉ (pdfToPrintable w r).1) ∧
      ((w .poppler = none ∧ x = "failed to load library:libpoppler-glib.so.8") ∨ ((w .poppler).isSome ∧ w .cairo = none ∧ x = "failed to load library:libcairo.so.2"))) := by
  unfold pdfToPrintable
  by_cases hu : r.unequal = true
  · rw [if_pos hu]
    exact ⟨sound_of_exec rfl, by simp [hu], fun x h => by cases h⟩
  · rw [if_neg hu]
    refine ⟨sound_of_exec (exec_lib fun _ => exec_lib fun _ => exec_same _ fun s hs => ?_), ?_, ?_⟩
    · obtain ⟨e, -, he⟩ := List.mem_flatMap.mp hs
      unfold touch at he
      split at he
      · rename_i l hl
        obtain rfl := List.mem_singleton.mp he
        have : l = .poppler ∨ l = .cairo := by
          unfold libOf at hl
          split at hl <;> simp_all
        rcases this with rfl | rfl <;> simp [exec]
      · cases he
    · unfold lib
      cases h1 : w .poppler <;> cases h2 : w .cairo <;> simp [hu]
    · intro x hx
      unfold lib at hx ⊢
      cases h1 : w .poppler with
      | none => rw [h1] at hx; cases hx; exact ⟨fun l h => by simp at h, .inl ⟨rfl, rfl⟩⟩
      | some _ =>
        rw [h1] at hx
        cases h2 : w .cairo with
        | none => rw [h2] at hx; cases hx; exact ⟨fun l h => by simp at h, .inr ⟨rfl, rfl, rfl⟩⟩
        | some _ => rw [h2] at hx; cases hx

/-- The functions of libjpeg that are used -/
def jpegUsed : List String := "jpeg_resync_to_restart" :: jpegFuncs

theorem baselinify_there {w : World} {has : String → Bool} (hw : w .jpeg = some has) (p : Picture) :
    (baselinify w p).2 = none ∧ ((∀ f ∈ jpegUsed, has f = true) → exec w (baselinify w p).1 closed = .ok closed) := by
  have hs : (sourceMgr w).2 = none := by simp only [sourceMgr, lib, hw]
  have he : ∀ a : List Step, ∀ b : Part, andThen (a, none) b = (a ++ b.1, b.2) := fun a b => rfl
  have he' : ∀ b : Part, andThen (sourceMgr w) b = ((sourceMgr w).1 ++ b.1, b.2) := fun b => by unfold andThen; rw [hs]; rfl
  unfold baselinify
  rw [he', he]
  refine ⟨by simp only [lib, hw], fun hf => exec_lib fun _ => ?_⟩
  have calls : ∀ t : List String, (∀ f ∈ t, f ∈ jpegUsed) → exec w (t.map (.calls .jpeg)) (fun x => if x = Lib.jpeg then closed x + 1 else closed x) = .ok (fun x => if x = Lib.jpeg then closed x + 1 else closed x) := by
    intro t ht
    refine exec_same _ fun s hs => ?_
    obtain ⟨f, hf', rfl⟩ := List.mem_map.mp hs
    simp [exec, hw, hf f (ht f hf')]
  rw [exec_before _ (calls _ (by decide))]
  have hm : exec w (sourceMgr w).1 (fun x => if x = Lib.jpeg then closed x + 1 else closed x) = .ok (fun x => if x = Lib.jpeg then closed x + 1 else closed x) := exec_lib fun _ => rfl
  rw [exec_before _ hm]
  refine calls _ fun f hf => ?_
  simp only [List.mem_append, List.mem_replicate] at hf
  rcases hf with (((h | ⟨-, rfl⟩) | h) | ⟨-, rfl⟩) | h
  · revert f; decide
  · decide
  · revert f; decide
  · decide
  · revert f; decide

/-- Every function that is called is known or was looked up before. -/
def Ordered : List (Lib × String) → List Step → Prop
  | _, [] => True
  | known, .finds l f :: t => Ordered ((l, f) :: known) t
  | known, .calls l f :: t => (l, f) ∈ known ∧ Ordered known t
  | known, _ :: t => Ordered known t

theorem Ordered.before {l : Lib} {f : String} {b : List Step} : ∀ (a : List Step) (known : List (Lib × String)), Ordered known (a ++ .calls l f :: b) → (l, f) ∈ known ∨ .finds l f ∈ a := by
  intro a
  induction a with
  | nil => intro known h; exact .inl h.1
  | cons s a ih =>
    intro known h
    cases s with
    | finds l' f' =>
      rcases ih _ h with h' | h'
      · rcases List.mem_cons.mp h' with e | h'
        · cases e; exact .inr List.mem_cons_self
        · exact .inl h'
      · exact .inr (List.mem_cons_of_mem _ h')
    | calls l' f' => exact (ih _ h.2).imp id (List.mem_cons_of_mem _)
    | opens l' => exact (ih _ h).imp id (List.mem_cons_of_mem _)
    | closes l' => exact (ih _ h).imp id (List.mem_cons_of_mem _)
    | runs l' => exact (ih _ h).imp id (List.mem_cons_of_mem _)

theorem Ordered.calls {known : List (Lib × String)} {t : List Step} (ht : Ordered known t) : ∀ names : List String, (∀ f ∈ names, (Lib.jpeg, f) ∈ known) →
    Ordered known (names.map (.calls .jpeg) ++ t) := by
  intro names
  induction names with
  | nil => intro _; exact ht
  | cons f names ih => intro h; exact ⟨h f List.mem_cons_self, ih fun x hx => h x (List.mem_cons_of_mem _ hx)⟩

theorem found_within {w : World} {l : Lib} {mid : List Step} (h : Keeps w mid (more l closed)) (ho : Ordered [] (.opens l :: (mid ++ [.closes l])))
    (hl : ∀ l' f, .calls l' f ∈ mid → l' = l) : Found w (.opens l :: (mid ++ [.closes l])) := by
  intro before l' f after e
  have hl' : l' = l := by
    apply hl l' f
    have : .calls l' f ∈ Step.opens l :: (mid ++ [.closes l]) := by rw [e]; simp
    simpa using this
  subst hl'
  rw [e] at ho
  rcases Ordered.before _ _ ho with h' | h'
  · cases h'
  · obtain ⟨a, b, rfl⟩ := List.append_of_mem h'
    refine ⟨a, b, rfl, fun c d hb => ?_⟩
    subst hb
    have e' : .opens l' :: (mid ++ [.closes l']) = (a ++ .finds l' f :: c) ++ (d ++ .calls l' f :: after) := by rw [e]; simp
    rcases exec_first h e' with h1 | h1 | ⟨-, -, -, -, m, h1, h2⟩
    · simp at h1
    · exfalso
      have := congrArg List.length e'
      rw [← h1] at this
      simp at this
    · refine ⟨m, h1, ?_⟩
      have := h2 l'
      simp only [more, closed, if_true] at this
      omega

theorem baselinify_found {w : World} {has : String → Bool} (hw : w .jpeg = some has) (hf : ∀ f ∈ jpegUsed, has f = true) (p : Picture) : Found w (baselinify w p).1 := by
  have hs : sourceMgr w = ([.opens .jpeg, .finds .jpeg "jpeg_resync_to_restart", .closes .jpeg], none) := by simp only [sourceMgr, lib, hw]; rfl
  have calls : ∀ t : List String, (∀ f ∈ t, f ∈ jpegUsed) → Keeps w (t.map (.calls .jpeg)) (more .jpeg closed) := by
    intro t ht
    refine Keeps.all _ fun s hs => ?_
    obtain ⟨f, hf', rfl⟩ := List.mem_map.mp hs
    simp [exec, hw, hf f (ht f hf'), more]
  have hmem : ∀ f ∈ (["jpeg_save_markers", "jpeg_save_markers", "jpeg_read_header", "jpeg_read_coefficients"] ++ List.replicate p.resyncs "jpeg_resync_to_restart" ++
          ["jpeg_copy_critical_parameters", "jpeg_write_coefficients"] ++ List.replicate p.markers "jpeg_write_marker" ++
          ["jpeg_finish_compress", "jpeg_destroy_compress", "jpeg_finish_decompress", "jpeg_destroy_decompress"]), f ∈ jpegUsed := by
    intro f hf
    simp only [List.mem_append, List.mem_replicate] at hf
    rcases hf with (((h | ⟨-, rfl⟩) | h) | ⟨-, rfl⟩) | h
    · revert f; decide
    · decide
    · revert f; decide
    · decide
    · revert f; decide
  unfold baselinify
  generalize (["jpeg_save_markers", "jpeg_save_markers", "jpeg_read_header", "jpeg_read_coefficients"] ++ List.replicate p.resyncs "jpeg_resync_to_restart" ++
          ["jpeg_copy_critical_parameters", "jpeg_write_coefficients"] ++ List.replicate p.markers "jpeg_write_marker" ++
          ["jpeg_finish_compress", "jpeg_destroy_compress", "jpeg_finish_decompress", "jpeg_destroy_decompress"]) = names at hmem ⊢
  have hm : Keeps w (sourceMgr w).1 (more .jpeg closed) := Keeps.lib fun _ => Keeps.nil _ _
  rw [hs] at hm ⊢
  simp only [lib, hw, andThen, Option.isSome_none, Bool.false_eq_true, if_false]
  refine found_within ?_ ?_ ?_
  · refine Keeps.append (Keeps.all _ fun s hs => ?_) (Keeps.append (calls _ (by decide)) (Keeps.append hm (calls _ hmem)))
    obtain ⟨f, -, rfl⟩ := List.mem_map.mp hs
    simp [exec, more]
  · have h : ∀ known, (∀ f ∈ names, (Lib.jpeg, f) ∈ known) → Ordered known (names.map (.calls .jpeg) ++ [.closes .jpeg]) := fun known => Ordered.calls (t := [.closes .jpeg]) trivial names
    simp only [jpegFuncs, List.map_cons, List.map_nil, List.cons_append, List.nil_append, Ordered]
    refine ⟨by decide, by decide, by decide, by decide, h _ fun f hf => ?_⟩
    have := hmem f hf
    simp only [jpegUsed, jpegFuncs, List.mem_cons, List.not_mem_nil, or_false] at this
    simp only [List.mem_cons, Prod.mk.injEq, List.not_mem_nil, or_false, true_and]
    rcases this with h | h | h | h | h | h | h | h | h | h | h | h | h | h <;> simp [h]
  · intro l f h
    simp at h
    rcases h with h | h | h | h | h <;> simp_all

/-- **C129, for pictures.** With a libjpeg that has all of the functions, whatever the picture has: all calls are defined, and of functions that were looked up in a library that has been open since, also those of the function that is kept beyond the constructor that
looked it up and closed the library; and without a libjpeg nothing is done but to throw an exception with its name. -/
theorem C129_jpeg_partial (w : World) (p : Picture) (h : ∀ has, w .jpeg = some has → ∀ f ∈ jpegUsed, has f = true) :
    Sound w (baselinify w p).1 ∧ Found w (baselinify w p).1 ∧ (w .jpeg = none → baselinify w p = ([], some "failed to load library:libjpeg.so.62")) ∧ ((w .jpeg).isSome → (baselinify w p).2 = none) := by
  cases hw : w .jpeg with
  | none =>
    have : baselinify w p = ([], some "failed to load library:libjpeg.so.62") := by
      unfold baselinify lib
      rw [hw]
      rfl
    exact ⟨by rw [this]; exact sound_of_exec rfl, by rw [this]; intro a l f b h; simp at h, fun _ => this, fun h => by cases h⟩
  | some has =>
    have := baselinify_there hw p
    exact ⟨sound_of_exec (this.2 (h has hw)), baselinify_found hw (h has hw) p, fun h => (by cases h), fun _ => this.1⟩

theorem exec_lacking {w : World} {l : Lib} {f : String} (h : (w l).any (· f) = false) : ∀ (t : List Step) (n m : Lib → Nat), .calls l f ∈ t → exec w t n ≠ .ok m := by
  intro t
  induction t with
  | nil => intro n m h; cases h
  | cons s t ih =>
    intro n m hm
    rcases List.mem_cons.mp hm with e | h'
    · subst e; simp [exec, h]
    · cases s with
      | opens l => exact ih _ _ h'
      | closes l => simp only [exec]; split <;> simp [ih _ _ h']
      | finds l f => simp only [exec]; split <;> simp [ih _ _ h']
      | calls l f => simp only [exec]; split <;> simp [ih _ _ h']
      | runs l => simp only [exec]; split <;> simp [ih _ _ h']

theorem exec_cong {w w' : World} : ∀ (t : List Step) (n : Lib → Nat), (∀ l f, .calls l f ∈ t → (w l).any (· f) = (w' l).any (· f)) → exec w t n = exec w' t n := by
  intro t
  induction t with
  | nil => intro n _; rfl
  | cons s t ih =>
    intro n h
    have h' : ∀ n, exec w t n = exec w' t n := fun n => ih n fun l f hm => h l f (List.mem_cons_of_mem _ hm)
    cases s with
    | calls l f => simp only [exec, h', h l f List.mem_cons_self]
    | _ => simp only [exec, h']

/-- **C129, exactly.** If libjpeg is there, `baselinify` is defined if and only if it has every function that is called for the picture: the one for markers matters if the picture has markers,
the one for restarts if it is called. -/
theorem C129_jpeg_exact {w : World} {has : String → Bool} (hw : w .jpeg = some has) (p : Picture) :
    Sound w (baselinify w p).1 ↔ ∀ f ∈ jpegUsed, (f = "jpeg_write_marker" → 0 < p.markers) → (f = "jpeg_resync_to_restart" → 0 < p.resyncs) → has f = true := by
  have hmem : ∀ l f, .calls l f ∈ (baselinify w p).1 ↔ l = .jpeg ∧ f ∈ jpegUsed ∧ (f = "jpeg_write_marker" → 0 < p.markers) ∧ (f = "jpeg_resync_to_restart" → 0 < p.resyncs) := by
    intro l f
    simp only [baselinify, andThen, sourceMgr, lib, hw]
    simp [jpegUsed, jpegFuncs]
    constructor
    · rintro (⟨h, h'⟩ | ⟨h, h'⟩ | ⟨h, h'⟩ | ⟨h, h'⟩ | ⟨h, h'⟩ | ⟨h, h'⟩ | ⟨h, h'⟩ | ⟨k, h, h'⟩ | ⟨h, h'⟩ | ⟨h, h'⟩ | ⟨k, h, h'⟩ | ⟨h, h'⟩ | ⟨h, h'⟩ | ⟨h, h'⟩ | ⟨h, h'⟩) <;>
        subst h h' <;> simp <;> omega
    · rintro ⟨h, h', k, k'⟩
      subst h
      rcases h' with h' | h' | h' | h' | h' | h' | h' | h' | h' | h' | h' | h' | h' | h' <;> subst h' <;> simp at k k' ⊢ <;> omega
  constructor
  · intro h f hf h1 h2
    apply Classical.byContradiction
    intro hn
    have hl : (w .jpeg).any (· f) = false := by rw [hw]; simpa using hn
    exact exec_lacking hl _ _ _ ((hmem .jpeg f).mpr ⟨rfl, hf, h1, h2⟩) h.1
  · intro h
    have e : baselinify w p = baselinify (fun l => if l = .jpeg then some (fun _ => true) else none) p := by
      simp only [baselinify, sourceMgr, lib, hw, if_true]
    apply sound_of_exec
    rw [exec_cong (w' := fun l => if l = .jpeg then some (fun _ => true) else none) _ _ (fun l f hm => ?_), e]
    · exact (baselinify_there (has := fun _ => true) (by simp) p).2 fun _ _ => rfl
    · obtain ⟨rfl, h0, h1, h2⟩ := (hmem l f).mp hm
      simp [hw, h f h0 h1 h2]

/-- Only libjpeg is there, with all of its functions. -/
def usual (l : Lib) : Option (String → Bool) := if l = .jpeg then some (fun f => jpegUsed.contains f) else none

/-- it has what the theorem asks for -/
example : (∀ has, usual .jpeg = some has → ∀ f ∈ jpegUsed, has f = true) ∧ (baselinify usual ⟨2, 1⟩).1.length = 35 := by
  refine ⟨fun has h f hf => ?_, by decide +kernel⟩
  cases h
  simpa using hf

/-- Nothing needs to be loaded if a program is refused before, and poppler is closed again if cairo is missing. -/
example : pdfToPrintable usual ⟨true, true, false, .raster, false, false, []⟩ = ([], none) ∧
    ((pdfToPrintable (fun l => if l = .poppler then some (fun _ => true) else none) ⟨false, true, false, .raster, false, false, []⟩).1.getLast? = some (.closes .poppler)) := by
  constructor <;> decide +kernel

/-- **C129 is false for a library that lacks a function.** What `dlsym` answers is not looked at: instead of an exception there is a call of a null pointer. -/
theorem C129_false : ¬ ∀ (w : World) (p : Picture), Sound w (baselinify w p).1 := by
  intro h
  have h1 := (h (fun l => if l = .jpeg then some (fun f => f ≠ "jpeg_save_markers") else none) ⟨0, 0⟩).1
  have h2 : (match exec (fun l => if l = .jpeg then some (fun f => f ≠ "jpeg_save_markers") else none)
      (baselinify (fun l => if l = .jpeg then some (fun f => f ≠ "jpeg_save_markers") else none) ⟨0, 0⟩).1 closed with | .ub => true | _ => false) = true := by decide +kernel
  rw [h1] at h2
  cases h2

end Verif.Life.Libraries
