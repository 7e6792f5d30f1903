import Verif.Convert.PdfMachine

/-!
# The ends of the variables of `pdf_to_printable` (C121)

A surface for PDF or PostScript writes into `outBts`, to which it has a pointer (pdf2printable.cpp 120, 133). cairo's documentation of `cairo_surface_finish` says that it is called by the
last `cairo_surface_destroy`, if it has not been called before. `outBts` is declared after the surface, so that it is gone by then.
-/

set_option linter.unusedVariables false

namespace Verif.Convert

open Tools Raster Pdf

/-! ## Model -/

/-- The variables of `pdf_to_printable` that have destructors, pdf2printable.cpp 70-91 -/
inductive Var where
  | surface | cairo | bmpBts | outBts | doc | errorP
  deriving DecidableEq, Repr

/-- In the order of their declarations -/
def declared : List Var := [.surface, .cairo, .bmpBts, .outBts, .doc, .errorP]

/-- The destructor of a variable, and the variables that are left. `pending`: there is a surface for PDF or PostScript that has not been finished, and has something to write at its end. The
variables `surface` and `cairo` (the latter through its `cairo_t`) refer to it; the end of the last of them makes it write into `outBts`. -/
def release (pending : Bool) (v : Var) (alive : List Var) : Outcome (List Var) :=
  let rest := alive.erase v
  if pending = true ∧ (v = .surface ∨ v = .cairo) ∧ .surface ∉ rest ∧ .cairo ∉ rest ∧ .outBts ∉ rest then .ub else .ok rest

/-- The destructors of these variables, one after the other -/
def leave (pending : Bool) : List Var → List Var → Outcome (List Var)
  | [], alive => .ok alive
  | v :: r, alive => do
    let rest ← release pending v alive
    leave pending r rest

/-- The end of a block with these declarations: the destructors are called in the opposite order. -/
def scopeEnd (pending : Bool) (declared : List Var) : Outcome (List Var) := leave pending declared.reverse declared

/-- pdf2printable.cpp 145-212: what has been drawn when the loop is left while the surface has not been finished; none: it has been finished (line 212). The cases are those of
`machinePages`. -/
def unfinished (junk : Nat → Bytes) (lum : Luminosity) (lim : Limits) (lib : Library) (taken : List Bytes → Bool) (paper : Paper) (p : Params)
    (surface : Option (Nat × Nat)) (total : Nat) : List Nat → Nat → List Drawn → Bytes → List Event → Option (List Drawn)
  | [], _, _, _, _ => none
  | pageNo :: rest, outPageNo, drawn, outBts, events =>
    match machineDrawn lim lib paper p pageNo with
    | .ok d =>
      match surface with
      | none => some (drawn ++ [d])
      | some size =>
        if lib.failed (drawn ++ [d]) then some (drawn ++ [d])
        else
          match machinePdfPage junk lum lib paper p size (outPageNo + 1) (drawn ++ [d]) d with
          | .ok b =>
            if taken (blocks events ++ [outBts ++ b]) then
              unfinished junk lum lim lib taken paper p surface total rest (outPageNo + 1) (drawn ++ [d]) []
                (events ++ [.write (outBts ++ b) true, .progress (outPageNo + 1) total])
            else some (drawn ++ [d])
          | _ => some (drawn ++ [d])
    | _ => some drawn

/-- pdf2printable.cpp 58-219: the same for the function. Without a surface, or with an image, there is nothing to be finished. -/
def pdfUnfinished (junk : Nat → Bytes) (lum : Luminosity) (lim : Limits) (lib : Library) (taken : List Bytes → Bool) (paper : Paper) (p : Params) : Option (List Drawn) :=
  match lib.pages with
  | none => none
  | some pages =>
    match p.pageSequence pages with
    | .ok seq =>
      match p.format with
      | .PDF | .Postscript => unfinished junk lum lim lib taken paper p (surfaceFor lim p) seq.length seq 0 [] [] []
      | _ => none
    | _ => none

/-- `pdf_to_printable`, pdf2printable.cpp 55-220, with the ends of its variables. `late` is what a surface that has not been finished writes when it is destroyed, after these pages were
drawn. What has no defined behaviour before that stays so. -/
def pdfScoped (junk : Nat → Bytes) (lum : Luminosity) (lim : Limits) (lib : Library) (late : List Drawn → Bytes) (taken : List Bytes → Bool) (paper : Paper) (p : Params) : Run :=
  let run := pdfMachine junk lum lim lib taken paper p
  let pending := match pdfUnfinished junk lum lim lib taken paper p with
    | some drawn => decide (late drawn ≠ [])
    | none => false
  match scopeEnd pending declared with
  | .ok _ => run
  | _ => { run with result := .ub }

/-- `main`, pdf2printable_main.cpp 21-215, as `pdfMachineMain`, with the ends of the variables of `pdf_to_printable` -/
def pdfScopedMain (junk : Nat → Bytes) (lum : Luminosity) (lim : Limits) (lib : Bytes → Bool → Library) (late : List Drawn → Bytes) (d : Disk) (args : List Bytes) : Done :=
  let r := getArgs pdfOpts pdfPos args
  if (r.vals 0).isSome then { out := .ok 0 }
  else if r.success then
    let outFile := r.positional.getD 1 []
    match pdfParams r.vals outFile with
    | .ok none => { out := .ok 1 }
    | .ok (some (paper, p)) =>
      let run := pdfScoped junk lum lim (lib (r.positional.getD 0 []) (r.vals 14).isSome) late (fun _ => true) paper p
      { out := codeFor run.result, file := some (outFile, d.kept outFile (blocks run.events).flatten) }
    | .throws e => { out := .throws e }
    | .ub => { out := .ub }
    | .hang => { out := .hang }
  else { out := .ok 1 }

/-! ## Specification -/

namespace Spec

/-- How many pages were reported as done -/
def progressed (events : List Event) : Nat := (events.filter fun e => match e with | .progress _ _ => true | _ => false).length

/-- The function was left between the pages: for an error of cairo, or because a block was not taken that is not the last one, after all the pages. -/
def LeftEarly (run : Run) (pages : Nat) : Prop :=
  run.result = .ok (some .cairo) ∨ (run.result = .ok (some .write) ∧ progressed run.events < pages)

/-- In this order of declarations `outBts` comes before the variables that refer to the surface. -/
def StreamFirst (order : List Var) : Prop := ∀ before v after, order = before ++ v :: after → v = .surface ∨ v = .cairo → .outBts ∈ before

end Spec

open Verif.Convert.Spec

/-! ## Proofs -/

theorem scopeEnd_declared (pending : Bool) : scopeEnd pending declared = if pending then .ub else .ok [] := by
  cases pending <;> decide

theorem pdfScoped_eq (junk : Nat → Bytes) (lum : Luminosity) (lim : Limits) (lib : Library) (late : List Drawn → Bytes) (taken : List Bytes → Bool) (paper : Paper) (p : Params) :
    pdfScoped junk lum lim lib late taken paper p =
      match pdfUnfinished junk lum lim lib taken paper p with
      | some drawn => if late drawn = [] then pdfMachine junk lum lim lib taken paper p else { pdfMachine junk lum lim lib taken paper p with result := .ub }
      | none => pdfMachine junk lum lim lib taken paper p := by
  unfold pdfScoped
  simp only [scopeEnd_declared]
  cases pdfUnfinished junk lum lim lib taken paper p with
  | none => rfl
  | some d => by_cases h : late d = [] <;> simp [h]

theorem progressed_append (a b : List Event) : progressed (a ++ b) = progressed a + progressed b := by
  unfold progressed; rw [List.filter_append, List.length_append]

/-- The loop for PDF and PostScript, while what it does is defined: it is left with an unfinished surface exactly when it is left early. -/
theorem unfinished_iff (junk : Nat → Bytes) (lum : Luminosity) (lim : Limits) (lib : Library) (taken : List Bytes → Bool) (paper : Paper) (p : Params)
    (surface : Option (Nat × Nat)) (total : Nat) (hr : isRaster p = false) : ∀ (seq : List Nat) (outPageNo : Nat) (drawn : List Drawn) (outBts : Bytes) (events : List Event)
    (r : Option Failure), (machinePages junk lum lim lib taken paper p surface total seq outPageNo drawn outBts events).result = .ok r →
    ((unfinished junk lum lim lib taken paper p surface total seq outPageNo drawn outBts events).isSome ↔
      LeftEarly (machinePages junk lum lim lib taken paper p surface total seq outPageNo drawn outBts events) (progressed events + seq.length)) := by
  intro seq
  induction seq with
  | nil =>
    intro outPageNo drawn outBts events r _
    unfold unfinished machinePages LeftEarly
    rw [hr]
    simp only [Option.isSome_none, Bool.false_eq_true, false_iff, if_false]
    by_cases h1 : (outBts ++ lib.finished drawn).length ≠ 0
    · rw [if_pos h1]
      by_cases h2 : taken (blocks events ++ [outBts ++ lib.finished drawn]) = true
      · rw [if_pos h2]; simp
      · rw [if_neg h2]
        rintro (h | ⟨_, hp⟩)
        · simp at h
        · simp only [progressed_append, List.length_nil] at hp
          omega
    · rw [if_neg h1]; simp
  | cons pageNo rest ih =>
    intro outPageNo drawn outBts events r hres
    unfold unfinished
    unfold machinePages runAfter at hres ⊢
    cases hd : machineDrawn lim lib paper p pageNo with
    | throws e => rw [hd] at hres; simp at hres
    | hang => rw [hd] at hres; simp at hres
    | ub => rw [hd] at hres; simp at hres
    | ok d =>
      rw [hd] at hres
      simp only at hres ⊢
      cases surface with
      | none => simp [LeftEarly]
      | some size =>
        simp only at hres ⊢
        by_cases hf : lib.failed (drawn ++ [d]) = true
        · rw [if_pos hf, if_pos hf]; simp [LeftEarly]
        · rw [if_neg hf] at hres
          rw [if_neg hf, if_neg hf]
          have hpage : machinePdfPage junk lum lib paper p size (outPageNo + 1) (drawn ++ [d]) d = .ok (lib.shown (drawn ++ [d])) := by
            unfold machinePdfPage; rw [hr]; rfl
          rw [hpage] at hres ⊢
          simp only at hres ⊢
          by_cases ht : taken (blocks events ++ [outBts ++ lib.shown (drawn ++ [d])]) = true
          · rw [if_pos ht] at hres
            rw [if_pos ht, if_pos ht, ih _ _ _ _ r hres, progressed_append]
            have : progressed [Event.write (outBts ++ lib.shown (drawn ++ [d])) true, Event.progress (outPageNo + 1) total] = 1 := rfl
            rw [this, List.length_cons, Nat.add_assoc, Nat.add_comm 1]
          · rw [if_neg ht, if_neg ht]
            simp only [Option.isSome_some, true_iff, LeftEarly]
            right
            refine ⟨trivial, ?_⟩
            rw [progressed_append]
            have : progressed [Event.write (outBts ++ lib.shown (drawn ++ [d])) false] = 0 := rfl
            rw [this, List.length_cons]; omega

theorem leave_good (pending : Bool) : ∀ n (order : List Var), order.length = n → order.Nodup → StreamFirst order → leave pending order.reverse order = .ok [] := by
  intro n
  induction n with
  | zero => intro order h _ _; rw [List.length_eq_zero_iff.mp h]; rfl
  | succ n ih =>
    intro order h hn hs
    have hne : order ≠ [] := by intro h0; rw [h0] at h; simp at h
    obtain ⟨init, v, rfl⟩ : ∃ init v, order = init ++ [v] := ⟨order.dropLast, order.getLast hne, (List.dropLast_concat_getLast hne).symm⟩
    have hv : v ∉ init := by
      intro hv
      rw [List.nodup_append] at hn
      exact hn.2.2 v hv v (by simp) rfl
    rw [List.reverse_append]
    simp only [List.reverse_cons, List.reverse_nil, List.nil_append, List.cons_append, leave, release]
    rw [List.erase_append_right _ hv]
    simp only [List.erase_cons_head, List.append_nil]
    rw [if_neg]
    · simp only [Outcome.bind_ok]
      refine ih init (by simp at h; exact h) (List.nodup_append.mp hn).1 ?_
      intro a w b hab hw
      exact hs a w (b ++ [v]) (by rw [hab]; simp) hw
    · rintro ⟨_, h1, _, _, h2⟩
      exact h2 (hs init v [] rfl h1)

theorem leave_bad (a : List Var) (v : Var) (hv : v = .surface ∨ v = .cairo) (h1 : Var.surface ∉ a) (h2 : Var.cairo ∉ a) (h3 : Var.outBts ∉ a) : ∀ n (b : List Var),
    b.length = n → (a ++ v :: b).Nodup → leave true (a ++ v :: b).reverse (a ++ v :: b) = .ub := by
  intro n
  induction n with
  | zero =>
    intro b hb hn
    rw [List.length_eq_zero_iff.mp hb] at hn ⊢
    have hva : v ∉ a := by
      intro hva
      rw [List.nodup_append] at hn
      exact hn.2.2 v hva v (by simp) rfl
    rw [List.reverse_append]
    simp only [List.reverse_cons, List.reverse_nil, List.nil_append, List.cons_append, leave, release]
    rw [List.erase_append_right _ hva]
    simp only [List.erase_cons_head, List.append_nil]
    rw [if_pos ⟨trivial, hv, h1, h2, h3⟩]
    rfl
  | succ n ih =>
    intro b hb hn
    have hne : b ≠ [] := by intro h0; rw [h0] at hb; simp at hb
    obtain ⟨init, w, rfl⟩ : ∃ init w, b = init ++ [w] := ⟨b.dropLast, b.getLast hne, (List.dropLast_concat_getLast hne).symm⟩
    have e : a ++ v :: (init ++ [w]) = (a ++ v :: init) ++ [w] := by simp
    rw [e] at hn ⊢
    have hw : w ∉ a ++ v :: init := by
      intro hw
      rw [List.nodup_append] at hn
      exact hn.2.2 w hw w (by simp) rfl
    rw [List.reverse_append]
    simp only [List.reverse_cons, List.reverse_nil, List.nil_append, List.cons_append, leave, release]
    rw [List.erase_append_right _ hw]
    simp only [List.erase_cons_head, List.append_nil]
    rw [if_neg]
    · simp only [Outcome.bind_ok]
      exact ih init (by simp at hb; exact hb) (List.nodup_append.mp hn).1
    · rintro ⟨_, _, g1, g2, _⟩
      rcases hv with rfl | rfl
      · exact g1 (by simp)
      · exact g2 (by simp)

/-- The first of several elements of a list -/
theorem first_of (P : Var → Prop) [DecidablePred P] : ∀ (a : List Var) (v : Var) (b : List Var), P v →
    ∃ a' v' b', a ++ v :: b = a' ++ v' :: b' ∧ P v' ∧ (∀ x ∈ a', ¬ P x) ∧ a' <+: a := by
  intro a
  induction a with
  | nil => intro v b hv; exact ⟨[], v, b, rfl, hv, by simp, List.prefix_rfl⟩
  | cons x a ih =>
    intro v b hv
    by_cases hx : P x
    · exact ⟨[], x, a ++ v :: b, rfl, hx, by simp, List.nil_prefix⟩
    · obtain ⟨a', v', b', e, h1, h2, h3⟩ := ih v b hv
      refine ⟨x :: a', v', b', by rw [List.cons_append, e]; rfl, h1, ?_, ?_⟩
      · intro y hy
        rcases List.mem_cons.mp hy with rfl | hy
        · exact hx
        · exact h2 y hy
      · exact List.cons_prefix_cons.mpr ⟨rfl, h3⟩

/-! ## C121 -/

/-- C121: which orders of declaration are good for a surface that is still to be finished: exactly those in which `outBts` is declared before the variables that refer to the surface. -/
theorem C121_order (order : List Var) (hn : order.Nodup) : scopeEnd true order = .ok [] ↔ StreamFirst order := by
  constructor
  · intro h before v after e hv
    by_contra hb
    obtain ⟨a', v', b', e', h1, h2, h3⟩ := first_of (fun x => x = .surface ∨ x = .cairo) before v after hv
    have h4 : Var.outBts ∉ a' := fun hm => hb (h3.subset hm)
    rw [← e] at e'
    unfold scopeEnd at h
    rw [e', leave_bad a' v' h1 (fun hm => h2 _ hm (Or.inl rfl)) (fun hm => h2 _ hm (Or.inr rfl)) h4 _ b' rfl (by rw [← e']; exact hn)] at h
    cases h
  · intro h
    exact leave_good true _ order rfl hn h

/-- C121: the order of `pdf_to_printable` is none of these; of a surface that has been finished, or is an image, it is good. -/
theorem C121_declared : ¬ StreamFirst declared ∧ declared.Nodup ∧ scopeEnd false declared = .ok [] := by
  refine ⟨fun h => ?_, by decide, rfl⟩
  have := h [] .surface [.cairo, .bmpBts, .outBts, .doc, .errorP] rfl (Or.inl rfl)
  simp at this

/-- C121: with the raster formats nothing is used after its end. -/
theorem C121_raster (junk : Nat → Bytes) (lum : Luminosity) (lim : Limits) (lib : Library) (late : List Drawn → Bytes) (taken : List Bytes → Bool) (paper : Paper) (p : Params)
    (hf : p.format = .PWG ∨ p.format = .URF) : pdfScoped junk lum lim lib late taken paper p = pdfMachine junk lum lim lib taken paper p := by
  rw [pdfScoped_eq]
  have : pdfUnfinished junk lum lim lib taken paper p = none := by
    unfold pdfUnfinished
    cases lib.pages with
    | none => rfl
    | some pages =>
      simp only
      cases p.pageSequence pages with
      | ok seq => rcases hf with hf | hf <;> rw [hf]
      | _ => rfl
  rw [this]

theorem pdfUnfinished_iff (junk : Nat → Bytes) (lum : Luminosity) (lim : Limits) (lib : Library) (taken : List Bytes → Bool) (paper : Paper) (p : Params)
    (hf : p.format = .PDF ∨ p.format = .Postscript) (pages : Nat) (hp : lib.pages = some pages) (seq : List Nat) (hs : p.pageSequence pages = .ok seq) (r : Option Failure)
    (h : (pdfMachine junk lum lim lib taken paper p).result = .ok r) :
    (pdfUnfinished junk lum lim lib taken paper p).isSome ↔ LeftEarly (pdfMachine junk lum lim lib taken paper p) seq.length := by
  have hr : isRaster p = false := by unfold isRaster; rcases hf with hf | hf <;> rw [hf] <;> rfl
  have hu : ¬ (p.format = .URF ∧ p.hwResW ≠ p.hwResH) := by rcases hf with hf | hf <;> rw [hf] <;> simp
  have e1 : pdfMachine junk lum lim lib taken paper p = machinePages junk lum lim lib taken paper p (surfaceFor lim p) seq.length seq 0 [] [] [] := by
    unfold pdfMachine runAfter
    rw [if_neg hu, hp]; simp only; rw [hs]
    rcases hf with hf | hf <;> rw [hf]
  have e2 : pdfUnfinished junk lum lim lib taken paper p = unfinished junk lum lim lib taken paper p (surfaceFor lim p) seq.length seq 0 [] [] [] := by
    unfold pdfUnfinished
    rw [hp]; simp only; rw [hs]
    rcases hf with hf | hf <;> rw [hf]
  rw [e1] at h ⊢
  rw [e2, unfinished_iff junk lum lim lib taken paper p _ _ hr seq 0 [] [] [] r h]
  simp [progressed]

/-- C121: with PDF and PostScript something is used after its end exactly when the function is left between the pages (and what it did before has a meaning). -/
theorem C121_exact (junk : Nat → Bytes) (lum : Luminosity) (lim : Limits) (lib : Library) (late : List Drawn → Bytes) (hl : ∀ d, late d ≠ []) (taken : List Bytes → Bool)
    (paper : Paper) (p : Params) (hf : p.format = .PDF ∨ p.format = .Postscript) (pages : Nat) (hp : lib.pages = some pages) (seq : List Nat)
    (hs : p.pageSequence pages = .ok seq) (r : Option Failure) (h : (pdfMachine junk lum lim lib taken paper p).result = .ok r) :
    (LeftEarly (pdfMachine junk lum lim lib taken paper p) seq.length → (pdfScoped junk lum lim lib late taken paper p).result = .ub) ∧
    (¬ LeftEarly (pdfMachine junk lum lim lib taken paper p) seq.length →
      pdfScoped junk lum lim lib late taken paper p = pdfMachine junk lum lim lib taken paper p) := by
  have hi := pdfUnfinished_iff junk lum lim lib taken paper p hf pages hp seq hs r h
  rw [pdfScoped_eq, ← hi]
  cases pdfUnfinished junk lum lim lib taken paper p with
  | none => simp
  | some d => simp [hl d]

/-- C121: a conversion that succeeds uses nothing after its end, whatever cairo would write. -/
theorem C121_done (junk : Nat → Bytes) (lum : Luminosity) (lim : Limits) (lib : Library) (late : List Drawn → Bytes) (taken : List Bytes → Bool) (paper : Paper) (p : Params)
    (h : (pdfMachine junk lum lim lib taken paper p).result = .ok none) : pdfScoped junk lum lim lib late taken paper p = pdfMachine junk lum lim lib taken paper p := by
  by_cases hf : p.format = .PDF ∨ p.format = .Postscript
  · cases hp : lib.pages with
    | none =>
      unfold pdfMachine at h
      rw [hp] at h
      split at h <;> simp at h
    | some pages =>
      cases hs : p.pageSequence pages with
      | ok seq =>
        have hi := pdfUnfinished_iff junk lum lim lib taken paper p hf pages hp seq hs none h
        have hn : ¬ LeftEarly (pdfMachine junk lum lim lib taken paper p) seq.length := by
          rintro (h1 | ⟨h1, _⟩) <;> (rw [h] at h1; simp at h1)
        rw [← hi] at hn
        rw [pdfScoped_eq]
        cases hx : pdfUnfinished junk lum lim lib taken paper p with
        | none => rfl
        | some d => rw [hx] at hn; simp at hn
      | _ =>
        rw [pdfScoped_eq]
        have : pdfUnfinished junk lum lim lib taken paper p = none := by
          unfold pdfUnfinished; rw [hp]; simp only; rw [hs]
        rw [this]
  · rw [pdfScoped_eq]
    have : pdfUnfinished junk lum lim lib taken paper p = none := by
      unfold pdfUnfinished
      cases lib.pages with
      | none => rfl
      | some pages =>
        simp only
        cases p.pageSequence pages with
        | ok seq => revert hf; cases p.format <;> simp
        | _ => rfl
    rw [this]

/-- C121: nothing is used after its end when cairo has nothing to write for a surface that is released. -/
theorem C121_silent (junk : Nat → Bytes) (lum : Luminosity) (lim : Limits) (lib : Library) (late : List Drawn → Bytes) (hl : ∀ d, late d = []) (taken : List Bytes → Bool)
    (paper : Paper) (p : Params) : pdfScoped junk lum lim lib late taken paper p = pdfMachine junk lum lim lib taken paper p := by
  rw [pdfScoped_eq]
  cases pdfUnfinished junk lum lim lib taken paper p with
  | none => rfl
  | some d => simp [hl d]

/-- C121, for `pdf2printable`: what exits with 0 does what it does without regard to the ends of the variables. -/
theorem C121_main (junk : Nat → Bytes) (lum : Luminosity) (lim : Limits) (lib : Bytes → Bool → Library) (late : List Drawn → Bytes) (d : Disk) (args : List Bytes)
    (h : (pdfMachineMain junk lum lim lib d args).out = .ok 0) : pdfScopedMain junk lum lim lib late d args = pdfMachineMain junk lum lim lib d args := by
  unfold pdfMachineMain at h
  unfold pdfScopedMain pdfMachineMain
  simp only at h ⊢
  split
  · rfl
  · rename_i h0
    rw [if_neg h0] at h
    split
    · rename_i h1
      rw [if_pos h1] at h
      cases hp : pdfParams (getArgs pdfOpts pdfPos args).vals ((getArgs pdfOpts pdfPos args).positional.getD 1 []) with
      | ok o =>
        rw [hp] at h
        cases o with
        | none => rfl
        | some q =>
          simp only at h ⊢
          rw [C121_done]
          revert h
          cases (pdfMachine junk lum lim (lib ((getArgs pdfOpts pdfPos args).positional.getD 0 []) ((getArgs pdfOpts pdfPos args).vals 14).isSome) (fun _ => true) q.1 q.2).result with
          | ok r => cases r <;> simp [codeFor]
          | _ => simp [codeFor]
      | _ => rfl
    · rfl

/-- C121 is false of the code: a block that is not taken, of a document of three pages as PDF. -/
theorem C121_false : (pdfMachine (List.replicate · 77) codeLuminosity cairoLimits exLibrary (fun bs => decide (bs.length = 1)) smallPaper
      { smallParams with format := .PDF }).result = .ok (some .write) ∧
    (pdfScoped (List.replicate · 77) codeLuminosity cairoLimits exLibrary (fun _ => [9]) (fun bs => decide (bs.length = 1)) smallPaper
      { smallParams with format := .PDF }).result = .ub := by
  decide +kernel

/-- C121 is false of `pdf2printable`: cairo fails with the third page of a document. -/
theorem C121_main_false : ∃ (lib : Library) (args : List Bytes),
    (pdfMachineMain (List.replicate · 77) codeLuminosity cairoLimits (fun _ _ => lib) anyDisk args).out = .ok 1 ∧
    (pdfScopedMain (List.replicate · 77) codeLuminosity cairoLimits (fun _ _ => lib) (fun _ => [9]) anyDisk args).out = .ub :=
  ⟨{ pages := some 3, size := fun _ => (595, 842), draw := fun _ _ img => img, failed := fun l => decide (l.length = 3), shown := fun _ => [1], finished := fun _ => [2] },
    [ascii "a.pdf", ascii "b.pdf"], by decide +kernel⟩

/-- The hypotheses are met: a good order; and runs that are left between the pages, after the pages, and that succeed. -/
example : StreamFirst [.bmpBts, .outBts, .surface, .cairo, .doc, .errorP] := by
  rw [← C121_order _ (by decide)]; decide

example : LeftEarly (pdfMachine (List.replicate · 77) codeLuminosity cairoLimits exLibrary (fun bs => decide (bs.length = 1)) smallPaper { smallParams with format := .PDF }) 3 ∧
    ({ smallParams with format := .PDF } : Params).pageSequence 3 = .ok [1, 2, 3] ∧ exLibrary.pages = some 3 ∧
    (pdfMachine (List.replicate · 77) codeLuminosity cairoLimits exLibrary (fun bs => decide (bs.length < 4)) smallPaper { smallParams with format := .PDF }).result = .ok (some .write) ∧
    ¬ LeftEarly (pdfMachine (List.replicate · 77) codeLuminosity cairoLimits exLibrary (fun bs => decide (bs.length < 4)) smallPaper { smallParams with format := .PDF }) 3 ∧
    (pdfMachine (List.replicate · 77) codeLuminosity cairoLimits exLibrary (fun _ => true) smallPaper { smallParams with format := .Postscript }).result = .ok none := by
  unfold LeftEarly; decide +kernel

end Verif.Convert
