import Verif.Client.PrintProps
import Verif.Printer.SupplyProps
import Verif.Job.MediaProps

/-!
# Property C76: what `ippclient print` has sent when it ends well
-/

namespace Verif.Client

open Ipp Ipp.Spec Job Job.Spec Printer Printer.Spec Tools Tools.Spec
open Verif.Client.Spec

/-! ## Specification -/

namespace Spec

/-- The number of pages that is known of the input: that of a PDF; 0 stands for unknown. -/
def Counted (w : World) (inFile t : Bytes) (n : Int) : Prop :=
  (t = ascii "application/pdf" ∧ w.pdfPages inFile = some n) ∨ (t ≠ ascii "application/pdf" ∧ n = 0)

/-- The last part of a path: what follows the last slash. -/
def LastPart (path name : Bytes) : Prop := 47 ∉ name ∧ (path = name ∨ ∃ dir, path = dir ++ 47 :: name)

/-- The attributes which are sent as they were asked for, and their values. -/
def sent (o : Options) : List (Bytes × UInt8 × Option Value) :=
  [(ascii "multiple-document-handling", 0x44, o.collatedCopies.map .str), (ascii "print-color-mode", 0x44, o.colorMode.map .str),
   (ascii "print-quality", 0x23, o.quality.map .int), (ascii "print-scaling", 0x44, o.scaling.map .str), (ascii "output-bin", 0x44, o.outputBin.map .str),
   (ascii "finishings", 0x23, o.finishing.map .int)]

/-- The members of media-col which are sent as they were asked for, and their values. -/
def sentMembers (o : Options) : List (Bytes × UInt8 × Option Value) :=
  [(ascii "media-type", 0x44, o.mediaType.map .str), (ascii "media-source", 0x44, o.mediaSource.map .str)]

end Spec

open Verif.Client.Spec

/-! ## Proofs -/

theorem lastPart (path : Bytes) : LastPart path (fileName path) := by
  unfold fileName
  have h := List.takeWhile_append_dropWhile (p := fun c : UInt8 => decide (c ≠ 47)) (l := path.reverse)
  generalize hd : path.reverse.dropWhile (fun c => decide (c ≠ 47)) = d at h
  refine ⟨fun hm => ?_, ?_⟩
  · have := List.all_takeWhile (p := fun c : UInt8 => decide (c ≠ 47)) (l := path.reverse)
    have := List.all_eq_true.mp this 47 (List.mem_reverse.mp hm)
    simp at this
  · cases d with
    | nil =>
      left
      rw [List.append_nil] at h
      rw [h, List.reverse_reverse]
    | cons c d =>
      right
      have hc : c = 47 := by
        have := List.head?_dropWhile_not (p := fun c : UInt8 => decide (c ≠ 47)) (l := path.reverse)
        rw [hd] at this
        simpa using this
      subst hc
      refine ⟨d.reverse, ?_⟩
      have := congrArg List.reverse h
      rw [List.reverse_append, List.reverse_reverse, List.reverse_cons, List.append_assoc] at this
      exact this.symm

theorem counted {w : World} {inFile t : Bytes} {n : Int} (h : countPages w t inFile = some n) : Counted w inFile t n := by
  unfold countPages at h
  by_cases ht : t = pdf
  · rw [if_pos ht] at h
    exact .inl ⟨ht, h⟩
  · rw [if_neg ht] at h
    cases h
    exact .inr ⟨ht, rfl⟩

theorem launch_fine {w : World} {p : Printer} {o : Options} {inFile t : Bytes} {j : PrintJob} {e : End}
    (h : (launch w p o inFile (some (j, t))).out = .ok e) (hc : e.code = 0) :
    ∃ n store, countPages w t inFile = some n ∧ saved w o j = .ok (true, store) ∧
      (runJob { w.env with reqId := nextId w p, showJobId := o.printJobId } p j t (fileName inFile) n).out = .ok none ∧ e.store = store ∧
      (launch w p o inFile (some (j, t))).events = (runJob { w.env with reqId := nextId w p, showJobId := o.printJobId } p j t (fileName inFile) n).events := by
  unfold launch at *
  simp only at *
  cases hn : countPages w t inFile with
  | none =>
    rw [hn] at h
    cases h
    cases hc
  | some n =>
    rw [hn] at h
    simp only at h ⊢
    unfold submit at *
    cases hs : saved w o j with
    | ok r =>
      obtain ⟨b, store⟩ := r
      simp only [hs, lift_bind_ok] at h ⊢
      cases b with
      | false => cases h; cases hc
      | true =>
        simp only [if_true] at h ⊢
        rw [bindPure] at h ⊢
        simp only at h ⊢
        obtain ⟨x, hx, h⟩ := Outcome.bind_eq_ok.mp h
        cases h
        cases x with
        | some _ => cases hc
        | none => exact ⟨n, store, rfl, rfl, hx, rfl, rfl⟩
    | throws x => rw [hs] at h; cases h
    | ub => rw [hs] at h; cases h
    | hang => rw [hs] at h; cases h

theorem member_at (n : Bytes) (a : Attrs) : member n a = at_ a (ascii "media-col", n) := by
  unfold member at_
  have : ascii "media-col" ≠ [] := by decide +kernel
  simp only [if_neg this]
  cases KMap.get? a (ascii "media-col") with
  | none => rfl
  | some x =>
    obtain ⟨t, v⟩ := x
    cases v <;> rfl

/-- What is at a place, when a value is asked for. -/
theorem become_given {l : List (Place × UInt8 × Option Value)} {a b : Attrs} (h : Become l a b) (k : Nat) {q : Place} {t : UInt8} {g : Option Value} {v : Value}
    (hk : l[k]? = some (q, t, g)) (hg : g = some v) : at_ b q = some (t, v) := by
  have := h.1 _ (List.mem_of_getElem? hk)
  rw [this, hg]
  rfl

theorem sent_given {o : Options} {pages : Option Value} {a b : Attrs} (h : Become (wanted o pages) a b) : ∀ x ∈ sent o, ∀ v, x.2.2 = some v →
    KMap.get? b x.1 = some (x.2.1, v) := by
  intro x hx v hv
  unfold sent at hx
  simp only [List.mem_cons, List.not_mem_nil, or_false] at hx
  rcases hx with rfl | rfl | rfl | rfl | rfl | rfl
  · exact become_given h 2 rfl hv
  · exact become_given h 6 rfl hv
  · exact become_given h 7 rfl hv
  · exact become_given h 8 rfl hv
  · exact become_given h 11 rfl hv
  · exact become_given h 12 rfl hv

theorem members_given {o : Options} {pages : Option Value} {a b : Attrs} (h : Become (wanted o pages) a b) : ∀ x ∈ sentMembers o, ∀ v, x.2.2 = some v →
    member x.1 b = some (x.2.1, v) := by
  intro x hx v hv
  rw [member_at]
  unfold sentMembers at hx
  simp only [List.mem_cons, List.not_mem_nil, or_false] at hx
  rcases hx with rfl | rfl
  · exact become_given h 9 rfl hv
  · exact become_given h 10 rfl hv

theorem get?_insertNew_ne {α : Type} (m : KMap α) {k k' : Bytes} (v : α) (h : k' ≠ k) : KMap.get? (KMap.insertNew m k v) k' = KMap.get? m k' := by
  induction m with
  | nil => simp [KMap.insertNew, KMap.get?, h]
  | cons e m ih =>
    obtain ⟨k0, v0⟩ := e
    rw [KMap.insertNew]
    split
    · simp [KMap.get?, h]
    · split
      · rfl
      · simp only [KMap.get?, ih]

theorem get?_insertAll_ne {α : Type} (l : List (Bytes × α)) {k : Bytes} : ∀ (m : KMap α), (∀ e ∈ l, k ≠ e.1) → KMap.get? (KMap.insertAll m l) k = KMap.get? m k := by
  induction l with
  | nil => intro m _; rfl
  | cons e l ih =>
    intro m h
    show KMap.get? (KMap.insertAll (KMap.insertNew m e.1 e.2) l) k = _
    rw [ih _ (fun x hx => h x (List.mem_cons_of_mem _ hx)), get?_insertNew_ne _ _ (h e List.mem_cons_self)]

theorem name_base (addr user : Bytes) : ∀ e ∈ baseOpAttrs addr user, ascii "job-name" ≠ e.1 := by
  have h : ∀ k ∈ [ascii "attributes-charset", ascii "attributes-natural-language", ascii "printer-uri", ascii "requesting-user-name"], ascii "job-name" ≠ k := by
    decide +kernel
  intro e he
  apply h
  unfold baseOpAttrs at he
  simp only [List.mem_cons, List.not_mem_nil, or_false] at he ⊢
  rcases he with rfl | rfl | rfl | rfl <;> simp

theorem run_requests {env : Env} {p : Printer} {job : PrintJob} {input name : Bytes} {pages : Int} (hfile : ¬ IsFile p)
    (h : (runJob env p job input name pages).out = .ok none) :
    ∃ j1 m, finalize env.pipelines input pages job.copy = .ok (none, j1) ∧ m.jobAttrs = [j1.jobAttrs] ∧
      KMap.get? m.opAttrs (ascii "job-name") = some (0x42, .str name) ∧
      ((m.opOrStatus = 2 ∧ requests (runJob env p job input name pages).events = [m] ∧ SendsDocument (runJob env p job input name pages).events m) ∨
       ∃ d, m.opOrStatus = 5 ∧ d.opOrStatus = 6 ∧ d.jobAttrs = [[]] ∧ requests (runJob env p job input name pages).events = [m, d] ∧
        SendsDocument (runJob env p job input name pages).events d) := by
  have he : Ends (runJob env p job input name pages) none := ⟨h, fun x hx => nomatch hx⟩
  by_cases hts : TwoStage p job
  · obtain ⟨h1, h2⟩ := C52_two_stage env p job input name pages hfile hts
    rcases h2 none he with ⟨_, ⟨x, hx⟩ | hx⟩ | ⟨_, _, _, hx, _⟩ | ⟨c, m, hr, hs⟩
    · cases hx
    · cases hx
    · cases hx
    · rcases h1 with h1 | ⟨j1, c', hf, hc, ⟨h1, _⟩ | ⟨id, m', _, hm, h1, hd⟩⟩
      · rw [h1] at hr; cases hr
      · rw [h1] at hr; cases hr
      · refine ⟨j1, c', hf, hc.2.1, ?_, .inr ⟨m', hc.1, hm.1, hm.2.1, h1, hd⟩⟩
        rw [hc.2.2.2, get?_insertAll_ne _ _ (name_base _ _)]
        simp [KMap.get?]
  · obtain ⟨h1, h2⟩ := C52_one_stage env p job input name pages hfile hts
    rcases h2 none he with ⟨_, ⟨x, hx⟩ | hx⟩ | ⟨m, hr⟩
    · cases hx
    · cases hx
    · rcases h1 with h1 | ⟨j1, m', hf, hm, h1, hd⟩
      · rw [h1] at hr; cases hr
      · refine ⟨j1, m', hf, hm.2.1, ?_, .inl ⟨hm.1, h1, hd⟩⟩
        rw [hm.2.2.2, get?_insertAll_ne _ _ (name_base _ _), KMap.get?_assign_any, if_pos rfl]

theorem asked_sent {pl : Pipelines} {o : Options} {pages : Option Value} {a : Attrs} {job j1 : PrintJob} {t : Bytes} {n : Int} (hb : Become (wanted o pages) a job.jobAttrs)
    (hf : finalize pl t n job.copy = .ok (none, j1)) : ∀ x ∈ sent o, ∀ v, x.2.2 = some v → KMap.get? j1.jobAttrs x.1 = some (x.2.1, v) := by
  intro x hx v hv
  have hk : ∀ x ∈ sent {}, x.1 ∉ [ascii "media-col", ascii "media", ascii "page-ranges", ascii "printer-resolution", ascii "copies", ascii "sides"] := by decide +kernel
  have same : (sent {}).map (·.1) = (sent o).map (·.1) := by simp only [sent, List.map_cons, List.map_nil]
  have : x.1 ∈ (sent {}).map (·.1) := by rw [same]; exact List.mem_map_of_mem hx
  obtain ⟨y, hy, hxy⟩ := List.mem_map.mp this
  rw [C63_sent_as_asked _ _ _ _ _ hf x.1 (hxy ▸ hk y hy)]
  exact sent_given hb x hx v hv

theorem asked_members {pl : Pipelines} {o : Options} {pages : Option Value} {a : Attrs} {job j1 : PrintJob} {t : Bytes} {n : Int} (hb : Become (wanted o pages) a job.jobAttrs)
    (hf : finalize pl t n job.copy = .ok (none, j1)) : ∀ x ∈ sentMembers o, ∀ v, x.2.2 = some v → member x.1 j1.jobAttrs = some (x.2.1, v) := by
  intro x hx v hv
  have hk : ∀ x ∈ sentMembers {}, x.1 ∉ marginNames ∧ x.1 ≠ ascii "media-size" := by decide +kernel
  have same : (sentMembers {}).map (·.1) = (sentMembers o).map (·.1) := by simp only [sentMembers, List.map_cons, List.map_nil]
  have : x.1 ∈ (sentMembers {}).map (·.1) := by rw [same]; exact List.mem_map_of_mem hx
  obtain ⟨y, hy, hxy⟩ := List.mem_map.mp this
  rw [(C64_media _ _ _ _ _ hf).2.1 x.1 (hxy ▸ (hk y hy).1) (hxy ▸ (hk y hy).2)]
  exact members_given hb x hx v hv

theorem sent_core (w : World) (p : Printer) (o : Options) (inFile t : Bytes) (j j0 : PrintJob)
    (hj : createJob p = .ok j) (hr : restored w o j = .ok j0)
    (hc : CollectionsOk jobSettings j0.jobAttrs) (hs : KMap.Sorted j0.opAttrs) (hi : inputType w o inFile = some t) (hfile : ¬ IsFile p)
    (e : End) (he : (printCommand w p o inFile).out = .ok e) (hcode : e.code = 0) :
    ∃ (job : PrintJob) (pages : Option Value) (n : Int) (name : Bytes) (j1 : PrintJob) (m : Msg) (f : ConvertFun), PagesGive o pages ∧ Become (wanted o pages) j0.jobAttrs job.jobAttrs ∧
      Counted w inFile t n ∧ LastPart inFile name ∧ finalize w.env.pipelines t n job.copy = .ok (none, j1) ∧ m.jobAttrs = [j1.jobAttrs] ∧
      KMap.get? m.opAttrs (ascii "job-name") = some (0x42, .str name) ∧
      ((m.opOrStatus = 2 ∧ requests (printCommand w p o inFile).events = [m] ∧ SendsDocument (printCommand w p o inFile).events m) ∨
       ∃ d, m.opOrStatus = 5 ∧ d.opOrStatus = 6 ∧ d.jobAttrs = [[]] ∧ requests (printCommand w p o inFile).events = [m, d] ∧
        SendsDocument (printCommand w p o inFile).events d) ∧
      (∀ x ∈ sent o, ∀ v, x.2.2 = some v → KMap.get? j1.jobAttrs x.1 = some (x.2.1, v)) ∧
      (∀ x ∈ sentMembers o, ∀ v, x.2.2 = some v → member x.1 j1.jobAttrs = some (x.2.1, v)) ∧
      getConvertFun w.env.pipelines t j1.targetFormat = some f ∧ (w.env.convert f j1).2 = .ok none ∧
      document (printCommand w p o inFile).events = (w.env.convert f j1).1.flatten := by
  have hnot := not_refused hj hr hc hs he hcode
  obtain ⟨pages, a, b, hp, hpages, ha, _⟩ := prepared hnot.2 hj hr hc hs hi hnot.1
  have hb := (job_applied hc ha).2
  generalize hjob : ({ flags o j0 with jobAttrs := a, opAttrs := b } : PrintJob) = job at hp
  have hb : Become (wanted o pages) j0.jobAttrs job.jobAttrs := by rw [← hjob]; exact hb
  have e1 : printCommand w p o inFile = launch w p o inFile (some (job, t)) := by
    unfold printCommand
    rw [hp, lift_bind_ok]
  rw [e1] at he ⊢
  obtain ⟨n, store, hcount, hsaved, hrun, _, hev⟩ := launch_fine he hcode
  rw [hev]
  obtain ⟨j1, m, hf, hm, hname, hreq⟩ := run_requests hfile hrun
  obtain ⟨j2, f, hf2, hconv, hok, hdoc, _⟩ := C57_document _ p job t (fileName inFile) n hfile hrun
  have : j2 = j1 := by
    have := hf2.symm.trans hf
    cases this; rfl
  subst this
  refine ⟨job, pages, n, fileName inFile, j2, m, f, hpages, hb, counted hcount, lastPart inFile, hf, hm, hname, hreq, fun x hx v hv => ?_, fun x hx v hv => ?_, hconv, hok, hdoc⟩
  · exact asked_sent hb hf x hx v hv
  · exact asked_members hb hf x hx v hv

/-- **C76.** When `print` ends with 0, exactly one request with the attributes of the job was sent: it carries the settings that were asked for (those that
the job does not see to itself, for which see C31 to C36 and C64), and the name of the file; the document is what the converter made of the job. Missing:
printers that are files (`C76_file_partial`). -/
theorem C76_sent_partial (w : World) (p : Printer) (o : Options) (inFile t : Bytes) (j j0 : PrintJob)
    (hj : createJob p = .ok j) (hr : restored w o j = .ok j0)
    (hc : CollectionsOk jobSettings j0.jobAttrs) (hs : KMap.Sorted j0.opAttrs) (hty : TypeIs w o inFile t) (hfile : ¬ IsFile p)
    (e : End) (he : (printCommand w p o inFile).out = .ok e) (hcode : e.code = 0) :
    ∃ (job : PrintJob) (pages : Option Value) (n : Int) (name : Bytes) (j1 : PrintJob) (m : Msg) (f : ConvertFun), PagesGive o pages ∧ Become (wanted o pages) j0.jobAttrs job.jobAttrs ∧
      Counted w inFile t n ∧ LastPart inFile name ∧ finalize w.env.pipelines t n job.copy = .ok (none, j1) ∧ m.jobAttrs = [j1.jobAttrs] ∧
      KMap.get? m.opAttrs (ascii "job-name") = some (0x42, .str name) ∧
      ((m.opOrStatus = 2 ∧ requests (printCommand w p o inFile).events = [m] ∧ SendsDocument (printCommand w p o inFile).events m) ∨
       ∃ d, m.opOrStatus = 5 ∧ d.opOrStatus = 6 ∧ d.jobAttrs = [[]] ∧ requests (printCommand w p o inFile).events = [m, d] ∧
        SendsDocument (printCommand w p o inFile).events d) ∧
      (∀ x ∈ sent o, ∀ v, x.2.2 = some v → KMap.get? j1.jobAttrs x.1 = some (x.2.1, v)) ∧
      (∀ x ∈ sentMembers o, ∀ v, x.2.2 = some v → member x.1 j1.jobAttrs = some (x.2.1, v)) ∧
      getConvertFun w.env.pipelines t j1.targetFormat = some f ∧ (w.env.convert f j1).2 = .ok none ∧
      document (printCommand w p o inFile).events = (w.env.convert f j1).1.flatten := by
  exact sent_core w p o inFile t j j0 hj hr hc hs (inputType_of hty) hfile e he hcode

/-! A case that meets the hypotheses. -/

/-- A printer that takes PWG raster and prints in two stages. -/
def rasterPrinter : Printer :=
  { addr := ascii "ipp://x/ipp/print",
    attrs := [(ascii "document-format-supported", (0x49, .set [.str pwg])), (ascii "media-type-supported", (0x44, .set [.str (ascii "stationery")])),
              (ascii "operations-supported", (0x23, .set [.int 2, .int 5, .int 6])), (ascii "print-quality-supported", (0x23, .set [.int 4, .int 5]))] }

/-- The options `-q high --media-type stationery`. -/
def rasterOptions : Options := { quality := some 5, mediaType := some (ascii "stationery") }

example : (∃ j, createJob rasterPrinter = .ok j ∧ restored { world with env := exampleEnv } rasterOptions j = .ok j ∧
      CollectionsOk jobSettings j.jobAttrs ∧ KMap.Sorted j.opAttrs) ∧
    TypeIs { world with env := exampleEnv } rasterOptions (ascii "a.pdf") (ascii "application/pdf") ∧ ¬ Refused rasterPrinter rasterOptions ∧ ¬ IsFile rasterPrinter ∧
    (match (printCommand { world with env := exampleEnv } rasterPrinter rasterOptions (ascii "a.pdf")).out with
      | .ok e => e.code
      | _ => 1) = 0 := by
  refine ⟨⟨_, rfl, rfl, ?_, ?_⟩, .inr ⟨rfl, by decide +kernel, ascii "%PDF-1.7", .pdf, by decide +kernel, ⟨[37, 80, 68, 70], by decide +kernel, by decide +kernel⟩, rfl⟩, ?_, ?_, ?_⟩
  · exact ⟨List.Pairwise.nil, fun s hs _ a h => by cases h⟩
  · exact List.Pairwise.nil
  · intro h
    cases h with
    | pages t h1 h2 => cases h1
    | oneResolution h => exact h rfl
    | copies n h1 h2 => cases h1
    | value n v h1 h2 =>
      have all : ∀ x ∈ checked rasterOptions, ∀ v, x.2 = some v → ∃ a, KMap.get? rasterPrinter.attrs (x.1 ++ ascii "-supported") = some a ∧ v ∈ asList a.2 := by
        intro x hx v hv
        have : ∀ x ∈ checked rasterOptions, (match x.2 with
            | some v => (match KMap.get? rasterPrinter.attrs (x.1 ++ ascii "-supported") with
              | some a => decide (v ∈ asList a.2)
              | none => false)
            | none => true) = true := by decide +kernel
        have := this x hx
        rw [hv] at this
        simp only at this
        cases hg : KMap.get? rasterPrinter.attrs (x.1 ++ ascii "-supported") with
        | none => rw [hg] at this; cases this
        | some a => rw [hg] at this; exact ⟨a, rfl, by simpa using this⟩
      obtain ⟨a, ha, hv⟩ := all _ h1 v rfl
      apply h2
      unfold Supported
      rw [ha]
      exact (declares_asList _ _).mpr hv
  · unfold IsFile; decide +kernel
  · decide +kernel

end Verif.Client
