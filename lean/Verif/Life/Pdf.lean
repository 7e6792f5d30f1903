import Verif.Life.Spec

/-!
# The objects of the libraries in `pdf_to_printable` (C125)

The document, its error, the surface, the drawing contexts, the font options and the pages: what is obtained from poppler and cairo is held by `Pointer` (pointer.h). What these libraries
answer, what the callbacks do, and where an exception comes up, is arbitrary.
-/

namespace Verif.Life.Pdf

/-! ## Model -/

/-- What poppler and cairo make in pdf2printable.cpp 79-170; those of the pages with the number of the page that is written -/
inductive Obj where
  | doc | err | surface
  | cairo (n : Nat) | font (n : Nat) | page (n : Nat)
  deriving DecidableEq, Repr

abbrev Tr := List (Ev Obj)

/-- The destructor of a `Pointer`, and what `reset` does to what it had: the deleter is called unless there is nothing (pointer.h 12). -/
def drop (p : Option Obj) : Tr :=
  match p with
  | some o => [.freed o]
  | none => []

/-- How a page ends, pdf2printable.cpp 168-209 -/
inductive PageEnd where
  /-- the loop goes on -/
  | goes
  /-- an exception within the block of lines 169-189 -/
  | throwsInBlock
  /-- lines 192-195 -/
  | cairoError
  /-- an exception in lines 202-203, of a raster -/
  | throwsInRaster
  /-- `CHECK` in line 206 returns, or `writeFun` throws -/
  | notWritten
  /-- `progressFun` throws, line 209 -/
  | throwsInProgress
  deriving DecidableEq, Repr

/-- A page of the sequence -/
structure Page where
  /-- INVALID_PAGE, line 168 -/
  blank : Bool
  /-- `poppler_document_get_page` answers nothing. What the program then does has no defined behaviour: it reads numbers that nobody has set. Here it goes on, with any numbers. -/
  missing : Bool
  /-- line 181 -/
  rotate : Bool
  ends : PageEnd
  deriving DecidableEq, Repr

inductive Kind where
  | raster | pdf | ps | other
  deriving DecidableEq, Repr

/-- What a run meets -/
structure Run where
  /-- line 58 -/
  unequal : Bool
  /-- poppler gives a document; otherwise it gives an error. Not both, and not neither. -/
  opens : Bool
  /-- line 100: `getPageSequence` throws -/
  seqThrows : Bool
  kind : Kind
  /-- lines 111, 115: an exception there -/
  hdrThrows : Bool
  antiAlias : Bool
  pages : List Page

/-- Lines 153-161: the font options -/
def fonts (n : Nat) : Tr :=
  [.used (.cairo n), .made (.font n), .used (.cairo n), .used (.font n), .used (.font n), .used (.cairo n), .used (.font n)] ++ drop (some (.font n))

/-- Lines 151-166 -/
def prepare (r : Run) (n : Nat) : Tr :=
  match r.kind with
  | .raster => (if r.antiAlias then [] else fonts n) ++ List.replicate 4 (.used (.cairo n))
  | _ => []

/-- Uses of a page, if there is one -/
def usesPage (p : Option Obj) : Tr :=
  match p with
  | some o => [.used o]
  | none => []

/-- Lines 168-189, and whether the loop is left here -/
def block (n : Nat) (p : Page) : Tr × Bool :=
  if p.blank then ([], false)
  else
    let page : Option Obj := if p.missing then none else some (.page n)
    let got : Tr := .used .doc :: (match page with | some o => [.made o] | none => [])
    match p.ends with
    | .throwsInBlock => (got ++ usesPage page ++ drop page, true)
    | _ =>
      (got ++ usesPage page ++ [.used (.cairo n), .used (.cairo n)] ++ (if p.rotate then [.used (.cairo n)] else []) ++ usesPage page ++ [.used (.cairo n)] ++ drop page, false)

/-- Lines 191-209, and whether the loop is left -/
def finishPage (r : Run) (n : Nat) (p : Page) : Tr × Bool :=
  match p.ends with
  | .cairoError => ([.used (.cairo n)], true)
  | e =>
    ([.used (.cairo n), .used .surface] ++ (if r.kind = .raster then [.used .surface, .used .surface] else []),
      match e with
      | .throwsInRaster => r.kind = .raster
      | .notWritten | .throwsInProgress => true
      | _ => false)

/-- Lines 145-210 from the page with this number on: what happens, what the variable `cairo` holds at the end, and whether the loop was left early. Line 149 makes the new context first, and
then `reset` gives the old one back. -/
def loop (r : Run) : List Page → Nat → Option Obj → Tr × Option Obj × Bool
  | [], _, cairo => ([], cairo, false)
  | p :: ps, n, cairo =>
    let start : Tr := [.used .surface, .made (.cairo n)] ++ drop cairo ++ prepare r n
    let (b, left) := block n p
    if left then (start ++ b, some (.cairo n), true)
    else
      let (f, left) := finishPage r n p
      if left then (start ++ b ++ f, some (.cairo n), true)
      else
        let (rest, c, e) := loop r ps (n + 1) (some (.cairo n))
        (start ++ b ++ f ++ rest, c, e)

/-- The end of the function, or of the way of an exception through it: the destructors of error_p, doc, cairo and surface, in the opposite order of lines 70, 71, 76 and 91 -/
def leave (surface cairo doc err : Option Obj) : Tr := drop err ++ drop doc ++ drop cairo ++ drop surface

/-- The calls after the surface was made, lines 128-129, 136 -/
def restrict (k : Kind) : Tr :=
  match k with
  | .pdf => [.used .surface, .used .surface]
  | .ps => [.used .surface]
  | _ => []

/-- `pdf_to_printable`, pdf2printable.cpp 55-220 -/
def trace (r : Run) : Tr :=
  if r.unequal then []
  else if r.opens then
    [.made .doc, .used .doc] ++
    if r.seqThrows then leave none none (some .doc) none
    else if r.kind = .other then leave none none (some .doc) none
    else
      [.made .surface] ++
      if r.kind = .raster ∧ r.hdrThrows then leave (some .surface) none (some .doc) none
      else
        restrict r.kind ++ [.used .surface] ++
        (let (t, cairo, left) := loop r r.pages 1 none
         t ++ (if left then [] else [.used .surface]) ++ leave (some .surface) cairo (some .doc) none)
  else [.made .err, .used .err] ++ leave none none none (some .err)

/-! ## Proofs -/

theorem run_some {tr : Tr} {s s' : List Obj × List Obj} (h : run tr s = some s') (tr' : Tr) : run (tr ++ tr') s = run tr' s' := by
  rw [run_append, h]; rfl

/-- What there is while the pages are written: `n` is the next page. -/
structure Ok (n : Nat) (cairo : Option Obj) (s : List Obj × List Obj) : Prop where
  live : s.1 = cairo.toList ++ [.surface, .doc]
  mine : ∀ o ∈ cairo, ∃ m < n, o = .cairo m
  fresh : ∀ o ∈ s.2, o = .doc ∨ o = .surface ∨ ∃ m < n, o = .cairo m ∨ o = .font m ∨ o = .page m

/-- The same within a page -/
structure In (n : Nat) (font page : Bool) (s : List Obj × List Obj) : Prop where
  live : s.1 = [.cairo n, .surface, .doc]
  fresh : ∀ o ∈ s.2, o = .doc ∨ o = .surface ∨ o = .cairo n ∨ (font ∧ o = .font n) ∨ (page ∧ o = .page n) ∨ ∃ m < n, o = .cairo m ∨ o = .font m ∨ o = .page m

theorem prepare_run (r : Run) (n : Nat) {s : List Obj × List Obj} (h : In n false false s) : ∃ s', run (prepare r n) s = some s' ∧ In n true false s' := by
  obtain ⟨live, ever⟩ := s
  obtain ⟨rfl, hf⟩ := h
  have hn : Obj.font n ∉ ever := by
    intro hm
    rcases hf _ hm with h | h | h | ⟨h, _⟩ | ⟨h, _⟩ | ⟨m, hm, h | h | h⟩
    all_goals first | cases h | skip
    exact absurd hm (Nat.lt_irrefl _)
  unfold prepare
  cases r.kind <;> cases r.antiAlias
  case raster.false =>
    refine ⟨([.cairo n, .surface, .doc], .font n :: ever), ?_, rfl, ?_⟩
    · simp [fonts, drop, run, step, hn, List.replicate]
    · intro o ho
      rcases List.mem_cons.mp ho with rfl | ho
      · simp
      · rcases hf o ho with h | h | h | h | h | h <;> simp_all
  all_goals
    refine ⟨([.cairo n, .surface, .doc], ever), ?_, rfl, ?_⟩
    · simp [run, step, List.replicate]
    · intro o ho
      rcases hf o ho with h | h | h | h | h | h <;> simp_all

theorem block_run (n : Nat) (p : Page) {s : List Obj × List Obj} (h : In n true false s) : ∃ s', run (block n p).1 s = some s' ∧ In n true true s' := by
  obtain ⟨live, ever⟩ := s
  obtain ⟨rfl, hf⟩ := h
  have hn : Obj.page n ∉ ever := by
    intro hm
    rcases hf _ hm with h | h | h | ⟨_, h⟩ | ⟨h, _⟩ | ⟨m, hm, h | h | h⟩
    all_goals first | cases h | skip
    exact absurd hm (Nat.lt_irrefl _)
  have keep : ∀ o ∈ ever, o = .doc ∨ o = .surface ∨ o = .cairo n ∨ (true ∧ o = .font n) ∨ (true ∧ o = .page n) ∨ ∃ m < n, o = .cairo m ∨ o = .font m ∨ o = .page m := by
    intro o ho
    rcases hf o ho with h | h | h | h | h | h <;> simp_all
  have keep' : ∀ o ∈ .page n :: ever, o = .doc ∨ o = .surface ∨ o = .cairo n ∨ (true ∧ o = .font n) ∨ (true ∧ o = .page n) ∨ ∃ m < n, o = .cairo m ∨ o = .font m ∨ o = .page m := by
    intro o ho
    rcases List.mem_cons.mp ho with rfl | ho
    · simp
    · exact keep o ho
  unfold block
  rcases p with ⟨blank, missing, rotate, ends⟩
  cases blank
  case true => exact ⟨_, rfl, rfl, keep⟩
  cases missing
  case true =>
    refine ⟨([.cairo n, .surface, .doc], ever), ?_, rfl, keep⟩
    cases ends <;> cases rotate <;> simp [usesPage, drop, run, step]
  case false =>
    refine ⟨([.cairo n, .surface, .doc], .page n :: ever), ?_, rfl, keep'⟩
    cases ends <;> cases rotate <;> simp [usesPage, drop, run, step, hn]

theorem finishPage_run (r : Run) (n : Nat) (p : Page) {s : List Obj × List Obj} (h : In n true true s) : run (finishPage r n p).1 s = some s := by
  obtain ⟨live, ever⟩ := s
  obtain ⟨rfl, hf⟩ := h
  unfold finishPage
  cases p.ends <;> cases r.kind <;> simp [run, step]

theorem ok_of_in {n : Nat} {s : List Obj × List Obj} (h : In n true true s) : Ok (n + 1) (some (.cairo n)) s := by
  refine ⟨h.live, ?_, ?_⟩
  · intro o ho
    cases ho
    exact ⟨n, Nat.lt_succ_self n, rfl⟩
  · intro o ho
    rcases h.fresh o ho with h | h | h | ⟨_, h⟩ | ⟨_, h⟩ | ⟨m, hm, h⟩
    · exact .inl h
    · exact .inr (.inl h)
    · exact .inr (.inr ⟨n, Nat.lt_succ_self n, .inl h⟩)
    · exact .inr (.inr ⟨n, Nat.lt_succ_self n, .inr (.inl h)⟩)
    · exact .inr (.inr ⟨n, Nat.lt_succ_self n, .inr (.inr h)⟩)
    · exact .inr (.inr ⟨m, Nat.lt_succ_of_lt hm, h⟩)

theorem start_run {n : Nat} {cairo : Option Obj} {s : List Obj × List Obj} (h : Ok n cairo s) :
    ∃ s', run ([.used .surface, .made (.cairo n)] ++ drop cairo) s = some s' ∧ In n false false s' := by
  obtain ⟨live, ever⟩ := s
  obtain ⟨rfl, hm, hf⟩ := h
  have hn : Obj.cairo n ∉ ever := by
    intro hi
    rcases hf _ hi with h | h | ⟨m, hm, h | h | h⟩
    all_goals first | cases h | skip
    exact absurd hm (Nat.lt_irrefl _)
  refine ⟨([.cairo n, .surface, .doc], .cairo n :: ever), ?_, rfl, ?_⟩
  · cases cairo with
    | none => simp [drop, run, step, hn]
    | some o =>
      obtain ⟨m, hlt, rfl⟩ := hm o rfl
      have hne : Obj.cairo n ≠ .cairo m := by
        intro h; cases h; exact absurd hlt (Nat.lt_irrefl _)
      simp [drop, run, step, hn, hne]
  · intro o ho
    rcases List.mem_cons.mp ho with rfl | ho
    · simp
    · rcases hf o ho with h | h | h
      · exact .inl h
      · exact .inr (.inl h)
      · exact .inr (.inr (.inr (.inr (.inr h))))

theorem loop_run (r : Run) : ∀ (ps : List Page) (n : Nat) (cairo : Option Obj) {s : List Obj × List Obj}, Ok n cairo s →
    ∃ s' n', run (loop r ps n cairo).1 s = some s' ∧ Ok n' (loop r ps n cairo).2.1 s' := by
  intro ps
  induction ps with
  | nil => intro n cairo s h; exact ⟨s, n, rfl, h⟩
  | cons p ps ih =>
    intro n cairo s h
    obtain ⟨s1, h1, i1⟩ := start_run h
    obtain ⟨s2, h2, i2⟩ := prepare_run r n i1
    obtain ⟨s3, h3, i3⟩ := block_run n p i2
    have hst : run ([.used .surface, .made (.cairo n)] ++ drop cairo ++ prepare r n ++ (block n p).1) s = some s3 := by
      rw [List.append_assoc, run_some h1, run_some h2, h3]
    unfold loop
    simp only
    by_cases hb : (block n p).2 = true
    · rw [if_pos hb]
      exact ⟨s3, n + 1, hst, ok_of_in i3⟩
    · rw [if_neg hb]
      have h4 := finishPage_run r n p i3
      have hst' : run ([.used .surface, .made (.cairo n)] ++ drop cairo ++ prepare r n ++ (block n p).1 ++ (finishPage r n p).1) s = some s3 := by
        rw [run_some hst, h4]
      by_cases hf : (finishPage r n p).2 = true
      · rw [if_pos hf]
        exact ⟨s3, n + 1, hst', ok_of_in i3⟩
      · rw [if_neg hf]
        obtain ⟨s', n', hr, ho⟩ := ih (n + 1) (some (.cairo n)) (ok_of_in i3)
        exact ⟨s', n', by rw [run_some hst', hr], ho⟩

theorem leave_run {n : Nat} {cairo : Option Obj} {s : List Obj × List Obj} (h : Ok n cairo s) : run (leave (some .surface) cairo (some .doc) none) s = some ([], s.2) := by
  obtain ⟨live, ever⟩ := s
  obtain ⟨rfl, hm, hf⟩ := h
  cases cairo with
  | none => simp [leave, drop, run, step]
  | some o =>
    obtain ⟨m, hlt, rfl⟩ := hm o rfl
    simp [leave, drop, run, step]

/-- **C125**, the conversion of PDF: whatever the libraries answer, whatever the callbacks do, and wherever the function is left, each object of poppler and cairo that it obtained is given back
once, and not used after that. -/
theorem C125_pdf (r : Run) : Returned (trace r) := by
  unfold trace
  by_cases h1 : r.unequal = true
  · rw [if_pos h1]; exact fun o => .inl rfl
  rw [if_neg h1]
  by_cases h2 : r.opens = true
  · rw [if_pos h2]
    by_cases h3 : r.seqThrows = true
    · rw [if_pos h3]; exact returned_of_run (ever := [.doc]) (by decide)
    rw [if_neg h3]
    by_cases h4 : r.kind = .other
    · rw [if_pos h4]; exact returned_of_run (ever := [.doc]) (by decide)
    rw [if_neg h4]
    by_cases h5 : r.kind = .raster ∧ r.hdrThrows = true
    · rw [if_pos h5]; exact returned_of_run (ever := [.surface, .doc]) (by decide)
    rw [if_neg h5]
    have hk : run ([.made .doc, .used .doc] ++ ([.made .surface] ++ (restrict r.kind ++ [.used .surface]))) ([], []) = some ([.surface, .doc], [.surface, .doc]) := by
      cases r.kind <;> decide
    have ho : Ok 1 none (([.surface, .doc], [.surface, .doc]) : List Obj × List Obj) := ⟨rfl, nofun, by simp⟩
    obtain ⟨s', n', hr, ho'⟩ := loop_run r r.pages 1 none ho
    have hfin : run (if (loop r r.pages 1 none).2.2 then ([] : Tr) else [.used .surface]) s' = some s' := by
      by_cases hl : (loop r r.pages 1 none).2.2 = true
      · rw [if_pos hl]; rfl
      · rw [if_neg hl]
        have : Obj.surface ∈ s'.1 := by rw [ho'.live]; simp
        simp [run, step, this]
    refine returned_of_run (ever := s'.2) ?_
    rw [show ∀ (a b c d : Tr), a ++ (b ++ (c ++ [.used .surface] ++ d)) = (a ++ (b ++ (c ++ [.used .surface]))) ++ d by intros; simp only [List.append_assoc], run_some hk]
    show run ((loop r r.pages 1 none).1 ++ (if (loop r r.pages 1 none).2.2 then ([] : Tr) else [.used .surface]) ++ leave (some .surface) (loop r r.pages 1 none).2.1 (some .doc) none) _ = _
    rw [List.append_assoc, run_some hr, run_some hfin]
    exact leave_run ho'
  · rw [if_neg h2]; exact returned_of_run (ever := [.err]) (by decide)

/-- A raster of three pages, the second of them blank, the third refused by the reader: what happens to two of the objects -/
example :
    let r : Run := ⟨false, true, false, .raster, false, false, [⟨false, false, true, .goes⟩, ⟨true, false, false, .goes⟩, ⟨false, false, false, .notWritten⟩]⟩
    about (.page 3) (trace r) = [.made (.page 3), .used (.page 3), .used (.page 3), .freed (.page 3)] ∧ about (.cairo 2) (trace r) = .made (.cairo 2) :: (List.replicate 8 (.used (.cairo 2)) ++ [.freed (.cairo 2)]) := by
  decide

/-- A document that cannot be opened -/
example : trace ⟨false, false, false, .pdf, false, true, []⟩ = [.made .err, .used .err, .freed .err] := by decide

end Verif.Life.Pdf
