import Verif.Printer.SupplyProps

/-! # C89: what a fake printer saves -/

namespace Verif.Printer

open Ipp Job Job.Spec

namespace Spec

/-- The files that are made, and what is written to each until the next one is made. -/
def files : List Event → List (Bytes × Bytes)
  | [] => []
  | .create n :: r => (n, r.flatMap (fun e => match e with | .file b => b | _ => [])) :: files r
  | _ :: r => files r

/-- The names of the files of which it is told that they were written. -/
def told (es : List Event) : List Bytes := es.filterMap (fun e => match e with | .wrote n => some n | _ => none)

/-- The usual ends of the names of files. -/
def endings : List (Bytes × Bytes) :=
  [(ascii "application/pdf", ascii ".pdf"), (ascii "application/postscript", ascii ".ps"), (ascii "image/pwg-raster", ascii ".pwg"), (ascii "image/urf", ascii ".urf"),
   (ascii "image/png", ascii ".png"), (ascii "image/gif", ascii ".gif"), (ascii "image/jpeg", ascii ".jpg"), (ascii "image/tiff", ascii ".tiff")]

/-- The name of the file: what it was made from, and the format. -/
def debugName (fileName ending : Bytes) : Bytes := ascii "ippclient-debug-" ++ fileName ++ ending

end Spec

open Spec

theorem defaultExtension_ending {mime ending : Bytes} : defaultExtension mime = .ok ending ↔ (mime, ending) ∈ endings := by
  constructor
  · intro h
    unfold defaultExtension at h
    unfold endings
    repeat' split at h
    all_goals first
      | (cases h; done)
      | (rename_i hm; subst hm; cases h; simp [pdf, postscript, pwg, urf, png, gif, jpeg, tiff])
  · intro h
    simp only [endings, List.mem_cons, List.not_mem_nil, or_false, Prod.mk.injEq] at h
    rcases h with ⟨rfl, rfl⟩ | ⟨rfl, rfl⟩ | ⟨rfl, rfl⟩ | ⟨rfl, rfl⟩ | ⟨rfl, rfl⟩ | ⟨rfl, rfl⟩ | ⟨rfl, rfl⟩ | ⟨rfl, rfl⟩ <;> decide +kernel

theorem files_map (bs : List Bytes) (es : List Event) : files (bs.map Event.file ++ es) = files es := by
  induction bs with
  | nil => rfl
  | cons b bs ih => exact ih

theorem written_map (bs : List Bytes) : (bs.map Event.file).flatMap (fun e => match e with | .file b => b | _ => []) = bs.flatten := by
  induction bs with
  | nil => rfl
  | cons b bs ih => rw [List.map_cons, List.flatMap_cons, ih]; rfl

theorem told_map (bs : List Bytes) : told (bs.map Event.file) = [] := by
  induction bs with
  | nil => rfl
  | cons b bs ih => exact ih

/-- A run with a fake printer, once the job is settled. -/
theorem runJob_file {env : Env} {p : Printer} {job : PrintJob} {input fileName : Bytes} {pages : Int} (hfile : IsFile p) {ops : List Int}
    (ho : intList p.attrs (ascii "operations-supported") = .ok ops) {j' : PrintJob} (hf : finalize env.pipelines input pages job.copy = .ok (none, j')) {f : ConvertFun}
    (hg : getConvertFun env.pipelines input j'.targetFormat = some f) : runJob env p job input fileName pages = catchAll (printToFile env j' f fileName) := by
  unfold runJob runJobWith tryRun
  rw [ho, hf, lift_bind_ok, lift_bind_ok]
  simp only [afterFinalize, hg]
  unfold deliver
  rw [if_pos ((startsWith_file p).mpr hfile)]

/-- **C89, as far as it holds.** Whatever a printer with these attributes would get and accept, for a job whose format has a usual ending: the same run with a fake printer makes
one file, named after the document and its format, with the same document in it, tells that it was written, and succeeds. -/
theorem C89_same_partial (env : Env) (p : Printer) (addr : Bytes) (job : PrintJob) (input fileName : Bytes) (pages : Int) (hreal : ¬ IsFile p) (hfake : ascii "file://" <+: addr)
    (h : (runJob env p job input fileName pages).out = .ok none) {j' : PrintJob} (hj : finalize env.pipelines input pages job.copy = .ok (none, j')) {ending : Bytes}
    (he : (j'.targetFormat, ending) ∈ endings) :
    (runJob env { p with addr := addr } job input fileName pages).out = .ok none ∧
    files (runJob env { p with addr := addr } job input fileName pages).events = [(debugName fileName ending, document (runJob env p job input fileName pages).events)] ∧
    told (runJob env { p with addr := addr } job input fileName pages).events = [debugName fileName ending] := by
  obtain ⟨j2, f, h1, h2, h3, h4, _⟩ := C57_document env p job input fileName pages hreal h
  rw [hj] at h1; cases h1
  have ho : ∃ ops, intList p.attrs (ascii "operations-supported") = .ok ops := by
    have h : (tryRun env p job.copy input fileName pages).out = .ok none := catchAll_ends ⟨h, fun x hx => nomatch hx⟩
    unfold tryRun at h
    obtain ⟨ops, ho, _⟩ := bind_out h
    exact ⟨ops, ho⟩
  obtain ⟨ops, ho⟩ := ho
  rw [runJob_file (p := { p with addr := addr }) hfake ho hj h2, h4]
  unfold printToFile
  rw [defaultExtension_ending.2 he, lift_bind_ok, emit_bind]
  generalize env.convert f j' = cv at h3 ⊢
  obtain ⟨blocks, r⟩ := cv
  simp only at h3
  subst h3
  refine ⟨rfl, ?_, ?_⟩
  · show (_, _) :: files (blocks.map Event.file ++ [_]) = _
    rw [files_map]
    show [(_, (blocks.map Event.file ++ [Event.wrote _]).flatMap _)] = _
    rw [List.flatMap_append, written_map]
    simp [debugName]
  · show told (blocks.map Event.file ++ [_]) = _
    unfold told
    rw [List.filterMap_append]
    rw [show (blocks.map Event.file).filterMap _ = _ from told_map blocks]
    rfl

theorem tryRun_delivers (env : Env) (p : Printer) (job : PrintJob) (input fileName : Bytes) (pages : Int) :
    ((tryRun env p job input fileName pages).events = [] ∧ (tryRun env p job input fileName pages).out ≠ .ok none) ∨
    ∃ ops j' f, finalize env.pipelines input pages job = .ok (none, j') ∧ getConvertFun env.pipelines input j'.targetFormat = some f ∧
      tryRun env p job input fileName pages = deliver env p j' f fileName ops := by
  unfold tryRun
  rcases lift_bind (intList p.attrs (ascii "operations-supported"))
    (fun ops => Act.lift (finalize env.pipelines input pages job) >>= fun r => afterFinalize env p input fileName ops r) with
    ⟨ops, ho, he⟩ | hd
  · rw [he]
    rcases lift_bind (finalize env.pipelines input pages job) (fun r => afterFinalize env p input fileName ops r) with
      ⟨⟨e, j'⟩, hf, he⟩ | hd
    · rw [he]
      cases e with
      | some e => exact .inl ⟨rfl, fun h => by cases h⟩
      | none =>
        simp only [afterFinalize]
        cases hg : getConvertFun env.pipelines input j'.targetFormat with
        | none => exact .inl ⟨rfl, fun h => by cases h⟩
        | some f => exact .inr ⟨ops, j', f, hf, hg, rfl⟩
    · exact .inl ⟨hd.1, hd.2 _⟩
  · exact .inl ⟨hd.1, hd.2 _⟩

/-- **C89, the message.** Of a file it is told that it was written only if the conversion succeeded, and the file has the whole document. -/
theorem C89_told (env : Env) (p : Printer) (job : PrintJob) (input fileName : Bytes) (pages : Int) (hfile : IsFile p) {n : Bytes}
    (h : n ∈ told (runJob env p job input fileName pages).events) :
    ∃ j' f ending, finalize env.pipelines input pages job.copy = .ok (none, j') ∧ getConvertFun env.pipelines input j'.targetFormat = some f ∧ (j'.targetFormat, ending) ∈ endings ∧ n = debugName fileName ending ∧
      (env.convert f j').2 = .ok none ∧ files (runJob env p job input fileName pages).events = [(n, (env.convert f j').1.flatten)] := by
  have hev : (runJob env p job input fileName pages).events = (tryRun env p job.copy input fileName pages).events := catchAll_events _
  rw [hev] at h ⊢
  rcases tryRun_delivers env p job.copy input fileName pages with ⟨h1, _⟩ | ⟨ops, j', f, hf, hg, he⟩
  · rw [h1] at h; cases h
  · rw [he] at h ⊢
    have hd : deliver env p j' f fileName ops = printToFile env j' f fileName := by
      unfold deliver
      rw [if_pos ((startsWith_file p).mpr hfile)]
    rw [hd] at h ⊢
    unfold printToFile at h ⊢
    cases hx : defaultExtension j'.targetFormat with
    | throws e => rw [hx] at h; cases h
    | ub => rw [hx] at h; cases h
    | hang => rw [hx] at h; cases h
    | ok ext =>
      rw [hx, lift_bind_ok, emit_bind] at h
      rw [lift_bind_ok, emit_bind]
      refine ⟨j', f, ext, hf, hg, defaultExtension_ending.1 hx, ?_⟩
      generalize env.convert f j' = cv at h ⊢
      obtain ⟨blocks, r⟩ := cv
      have none_told : ∀ o : Outcome (Option RunError), n ∉ told ([Event.create (ascii "ippclient-debug-" ++ fileName ++ ext)] ++ (⟨blocks.map .file, o⟩ : Act (Option RunError)).events) := by
        intro o hn
        have : n ∈ told (blocks.map Event.file) := hn
        rw [told_map] at this
        cases this
      cases r with
      | throws e => exact absurd h (none_told (.throws e))
      | ub => exact absurd h (none_told .ub)
      | hang => exact absurd h (none_told .hang)
      | ok e =>
        cases e with
        | some e => exact absurd h (none_told (.ok none))
        | none =>
          have h : n ∈ told (blocks.map Event.file ++ [.wrote (ascii "ippclient-debug-" ++ fileName ++ ext)]) := h
          unfold told at h
          rw [List.filterMap_append, show (blocks.map Event.file).filterMap _ = _ from told_map blocks] at h
          have h : n = ascii "ippclient-debug-" ++ fileName ++ ext := List.mem_singleton.1 h
          subst h
          refine ⟨rfl, rfl, ?_⟩
          show (_, _) :: files (blocks.map Event.file ++ [_]) = _
          rw [files_map]
          show [(_, (blocks.map Event.file ++ [Event.wrote _]).flatMap _)] = _
          rw [List.flatMap_append, written_map]
          simp

/-- **C89, exactly.** When a run with a fake printer succeeds nothing is sent. One file is made, named after the document and its format, which has a usual ending, with all that the
conversion gave; and it is told of exactly if the conversion did not fail. -/
theorem C89_made (env : Env) (p : Printer) (job : PrintJob) (input fileName : Bytes) (pages : Int) (hfile : IsFile p)
    (h : (runJob env p job input fileName pages).out = .ok none) :
    ∃ j' f ending, finalize env.pipelines input pages job.copy = .ok (none, j') ∧ getConvertFun env.pipelines input j'.targetFormat = some f ∧ (j'.targetFormat, ending) ∈ endings ∧
      requests (runJob env p job input fileName pages).events = [] ∧
      files (runJob env p job input fileName pages).events = [(debugName fileName ending, (env.convert f j').1.flatten)] ∧
      (((env.convert f j').2 = .ok none ∧ told (runJob env p job input fileName pages).events = [debugName fileName ending]) ∨
       ((∃ e, (env.convert f j').2 = .ok (some e)) ∧ told (runJob env p job input fileName pages).events = [])) := by
  have hev : (runJob env p job input fileName pages).events = (tryRun env p job.copy input fileName pages).events := catchAll_events _
  have hout : (tryRun env p job.copy input fileName pages).out = .ok none := by
    unfold runJob runJobWith catchAll at h
    split at h
    · cases h
    · exact h
  rw [hev]
  rcases tryRun_delivers env p job.copy input fileName pages with ⟨_, h1⟩ | ⟨ops, j', f, hf, hg, he⟩
  · exact absurd hout h1
  · rw [he] at hout ⊢
    have hd : deliver env p j' f fileName ops = printToFile env j' f fileName := by
      unfold deliver
      rw [if_pos ((startsWith_file p).mpr hfile)]
    rw [hd] at hout ⊢
    unfold printToFile at hout ⊢
    cases hx : defaultExtension j'.targetFormat with
    | throws e => rw [hx] at hout; cases hout
    | ub => rw [hx] at hout; cases hout
    | hang => rw [hx] at hout; cases hout
    | ok ext =>
      rw [hx, lift_bind_ok, emit_bind] at hout
      rw [lift_bind_ok, emit_bind]
      refine ⟨j', f, ext, hf, hg, defaultExtension_ending.1 hx, ?_⟩
      generalize env.convert f j' = cv at hout ⊢
      obtain ⟨blocks, r⟩ := cv
      have hreq : ∀ es : List Event, requests (blocks.map Event.file ++ es) = requests es := fun es => by
        unfold requests
        rw [List.filterMap_append, List.filterMap_map, show blocks.filterMap (request ∘ Event.file) = [] from List.filterMap_eq_nil_iff.2 fun _ _ => rfl, List.nil_append]
      cases r with
      | throws e => cases hout
      | ub => cases hout
      | hang => cases hout
      | ok e =>
        cases e with
        | some e =>
          refine ⟨?_, ?_, .inr ⟨⟨e, rfl⟩, ?_⟩⟩
          · have := hreq []
            rw [List.append_nil] at this
            exact this
          · show (_, _) :: files (blocks.map Event.file) = _
            have := files_map blocks []
            rw [List.append_nil] at this
            rw [this]
            show [(_, (blocks.map Event.file).flatMap _)] = _
            rw [written_map]
            rfl
          · exact told_map blocks
        | none =>
          refine ⟨hreq _, ?_, .inl ⟨rfl, ?_⟩⟩
          · show (_, _) :: files (blocks.map Event.file ++ [_]) = _
            rw [files_map]
            show [(_, (blocks.map Event.file ++ [Event.wrote _]).flatMap _)] = _
            rw [List.flatMap_append, written_map]
            simp [debugName]
          · show told (blocks.map Event.file ++ [_]) = _
            unfold told
            rw [List.filterMap_append, show (blocks.map Event.file).filterMap _ = _ from told_map blocks]
            rfl

/-- A printer that takes plain text. -/
def textPrinter : Printer :=
  { addr := ascii "ipp://x/ipp/print",
    attrs := [(ascii "document-format-supported", (0x49, .set [.str (ascii "text/plain")])),
              (ascii "operations-supported", (0x23, .set [.int 2]))] }

/-- **C89, where it fails.** A document that a printer takes and prints can not be printed to a file, if its format is not one of eight: `defaultExtension` throws. -/
theorem C89_format_false :
    (runJob exampleEnv textPrinter (PrintJob.new textPrinter.attrs []) (ascii "text/plain") (ascii "a.txt") 1).out = .ok none ∧
    (let r := runJob exampleEnv { textPrinter with addr := ascii "file:///tmp/x" } (PrintJob.new textPrinter.attrs []) (ascii "text/plain") (ascii "a.txt") 1
     r.events = [] ∧ r.out = .ok (some (.exception .outOfRange))) := by
  decide +kernel

/-- **C89, also where it fails.** When the conversion fails after the first block the run succeeds all the same, and the file is there. -/
theorem C89_incomplete_false :
    (let r := runJob failingEnv { examplePrinter2 with addr := ascii "file:///tmp/x" } (PrintJob.new examplePrinter2.attrs []) pdf (ascii "a.pdf") 1
     r.events = [.create (ascii "ippclient-debug-a.pdf.pwg"), .file [1, 2]] ∧ r.out = .ok none) := by
  decide +kernel

/-- the hypotheses are met -/
example : ¬ IsFile examplePrinter2 ∧ (runJob exampleEnv examplePrinter2 (PrintJob.new examplePrinter2.attrs []) pdf (ascii "a.pdf") 1).out = .ok none ∧
    (match finalize exampleEnv.pipelines pdf 1 (PrintJob.new examplePrinter2.attrs []).copy with
      | .ok (none, j') => decide ((j'.targetFormat, ascii ".pwg") ∈ endings)
      | _ => false) = true ∧
    files (runJob exampleEnv { examplePrinter2 with addr := ascii "file:///tmp/x" } (PrintJob.new examplePrinter2.attrs []) pdf (ascii "a.pdf") 1).events =
      [(ascii "ippclient-debug-a.pdf.pwg", [1, 2, 3])] := by
  refine ⟨?_, by decide +kernel, by decide +kernel, by decide +kernel⟩
  rintro ⟨t, h⟩
  have := congrArg (fun l => l.take 7) h
  revert this
  simp only [List.take_left' (show (ascii "file://").length = 7 by decide +kernel)]
  decide +kernel

/-- A run that `C89_made` speaks of. -/
example : IsFile { examplePrinter2 with addr := ascii "file:///tmp/x" } ∧
    (runJob exampleEnv { examplePrinter2 with addr := ascii "file:///tmp/x" } (PrintJob.new examplePrinter2.attrs []) pdf (ascii "a.pdf") 1).out = .ok none :=
  ⟨by unfold IsFile; decide +kernel, by decide +kernel⟩

end Verif.Printer
