import Verif.Printer.Model
import Verif.Job.JobProps

/-!
# Properties C37 and C52: running a job
-/

namespace Verif.Printer

open Ipp Job Job.Spec

/-! ## Specification -/

namespace Spec

/-- The request in an event. -/
def request : Event → Option Msg
  | .post m _ => some m
  | .openStream m _ => some m
  | _ => none

/-- The requests that are sent, in order. -/
def requests (es : List Event) : List Msg := es.filterMap request

/-- A document is sent, with this request. -/
def SendsDocument (es : List Event) (m : Msg) : Prop := ∃ b, .openStream m b ∈ es

/-- The printer supports an operation. -/
def Supports (p : Printer) (op : Int) : Prop := Ipp.Spec.Declares (KMap.get? p.attrs (ascii "operations-supported")) (.int op)

/-- The job is to be created (operation 5) and then the document to be sent (6). -/
def TwoStage (p : Printer) (job : PrintJob) : Prop := job.oneStage = false ∧ Supports p 5 ∧ Supports p 6

/-- A reply to Create-Job that says that the job `id` was created. -/
def Created (reply : Except Bytes Bytes) (id : Int) : Prop :=
  ∃ data m rest tag a as, reply = .ok data ∧ decodeMsg data = .ok (m, rest) ∧ m.opOrStatus ≤ 0xff ∧ m.jobAttrs = a :: as ∧
    KMap.get? a (ascii "job-id") = some (tag, .int id)

/-- The address is that of a fake printer. -/
def IsFile (p : Printer) : Prop := ascii "file://" <+: p.addr

/-- `r` ends normally, not by an exception that is caught. -/
def Ends (r : Act (Option RunError)) (e : Option RunError) : Prop := r.out = .ok e ∧ ∀ x, e ≠ some (.exception x)

end Spec

open Spec

/-! ## Lemmas -/

theorem lift_bind_ok {α β : Type} (a : α) (f : α → Act β) : (Act.lift (.ok a) >>= f) = f a := by
  show Act.bind (Act.lift (.ok a)) f = f a
  unfold Act.bind Act.lift
  simp

theorem emit_bind {β : Type} (es : List Event) (f : Unit → Act β) :
    (Act.emit es >>= f) = ⟨es ++ (f ()).events, (f ()).out⟩ := rfl

/-- Nothing is done and no result is returned. -/
def Dead {α : Type} (x : Act α) : Prop := x.events = [] ∧ ∀ a, x.out ≠ .ok a

theorem lift_bind {α β : Type} (o : Outcome α) (f : α → Act β) :
    (∃ a, o = .ok a ∧ (Act.lift o >>= f) = f a) ∨ Dead (Act.lift o >>= f) := by
  cases o with
  | ok a => exact .inl ⟨a, rfl, lift_bind_ok a f⟩
  | throws e => exact .inr ⟨rfl, fun a h => nomatch h⟩
  | ub => exact .inr ⟨rfl, fun a h => nomatch h⟩
  | hang => exact .inr ⟨rfl, fun a h => nomatch h⟩

/-- An event that is no request. -/
def Quiet (es : List Event) : Prop := ∀ e ∈ es, request e = none

theorem requests_quiet {es : List Event} (h : Quiet es) : requests es = [] := by
  unfold requests
  rw [List.filterMap_eq_nil_iff]; exact h

theorem quiet_append {a b : List Event} (ha : Quiet a) (hb : Quiet b) : Quiet (a ++ b) := by
  intro e he
  rcases List.mem_append.mp he with h | h
  · exact ha e h
  · exact hb e h

theorem quiet_blocks (bs : List Bytes) : Quiet (blockEvents bs) := by
  intro e he
  obtain ⟨b, _, rfl⟩ := List.mem_map.mp he
  rfl

theorem quiet_finish : Quiet [.finish] := by
  intro e he
  obtain rfl := List.mem_singleton.mp he
  rfl

theorem quiet_compression (c : Bytes) : Quiet (compressionEvents c) := by
  unfold compressionEvents
  split
  · intro e he; obtain rfl := List.mem_singleton.mp he; rfl
  · split
    · intro e he; obtain rfl := List.mem_singleton.mp he; rfl
    · intro e he; cases he

theorem showJob_events (b : Bool) (l : List Attrs) : (showJob b l).events = [] ∨ ∃ id, (showJob b l).events = [.submitted id] := by
  unfold showJob
  split
  · exact .inl rfl
  · split
    · rename_i a _ _
      cases hg : getInteger a (ascii "job-id") with
      | ok id => exact .inr ⟨id, by simp only [lift_bind_ok]; rfl⟩
      | throws e => exact .inl rfl
      | ub => exact .inl rfl
      | hang => exact .inl rfl
    · exact .inl rfl

/-- After the reply at most the number of the job is shown. -/
theorem printResult_events (b : Bool) (r : Except Bytes Bytes) : (printResult b r).events = [] ∨ ∃ id, (printResult b r).events = [.submitted id] := by
  unfold printResult
  split
  · exact .inl rfl
  · rename_i data
    cases hd : decodeMsg data with
    | ok x =>
      simp only [lift_bind_ok]
      split
      · exact showJob_events b _
      · left
        cases getString x.1.opAttrs (ascii "status-message") (ascii "unknown") <;> rfl
    | throws e => exact .inl rfl
    | ub => exact .inl rfl
    | hang => exact .inl rfl

theorem quiet_result (b : Bool) (r : Except Bytes Bytes) : Quiet (printResult b r).events := by
  rcases printResult_events b r with h | ⟨id, h⟩ <;> rw [h]
  · intro e he; cases he
  · intro e he; obtain rfl := List.mem_singleton.mp he; rfl

theorem quiet_convert (env : Env) (f : ConvertFun) (job : PrintJob) : Quiet (convertAndAwait env f job).events := by
  unfold convertAndAwait
  split
  rename_i blocks r heq
  split
  · exact quiet_append (quiet_append (quiet_blocks _) quiet_finish) (quiet_result _ _)
  · exact quiet_append (quiet_blocks _) quiet_finish
  · exact quiet_append (quiet_blocks _) quiet_finish
  · exact quiet_blocks _
  · exact quiet_blocks _

/-- What `doPrint` does: nothing, or it opens the stream and sends no further request. -/
theorem doPrint_cases (env : Env) (reqId : Nat) (job : PrintJob) (f : ConvertFun) (m : Msg) :
    Dead (doPrint env reqId job f m) ∨
    ∃ bytes tail, encodeMsg reqId m = .ok bytes ∧ (doPrint env reqId job f m).events = .openStream m bytes :: tail ∧ Quiet tail := by
  unfold doPrint
  rcases lift_bind (encodeMsg reqId m)
    (fun bytes => Act.emit [.openStream m bytes] >>= fun _ => useCompression job >>= fun _ => convertAndAwait env f job) with
    ⟨bytes, hb, he⟩ | hd
  · right
    rw [he, emit_bind]
    refine ⟨bytes, _, hb, rfl, ?_⟩
    show Quiet (Act.bind (useCompression job) fun _ => convertAndAwait env f job).events
    unfold useCompression
    split
    · exact quiet_append (quiet_compression _) (quiet_convert env f job)
    · exact quiet_finish
    · intro e he; cases he
    · intro e he; cases he
  · exact .inl hd

theorem mkMsg_ok {p : Printer} {op : UInt16} {o j q : Attrs} {m : Msg} (h : mkMsg p op o j q = .ok m) :
    m.opOrStatus = op ∧ m.jobAttrs = [j] ∧ m.printerAttrs = q ∧ m.opAttrs = KMap.insertAll o (baseOpAttrs p.addr p.user) := by
  unfold mkMsg at h
  rw [Outcome.bind_eq_ok] at h
  obtain ⟨_, _, h⟩ := h
  cases h
  exact ⟨rfl, rfl, rfl, rfl⟩

/-- What `getString`/`getInteger` read. -/
theorem getInteger_ok {a : Attrs} {n : Bytes} {i : Int} (h : getInteger a n = .ok i) (hh : KMap.has a n = true) :
    ∃ tag, KMap.get? a n = some (tag, .int i) := by
  unfold getInteger Attrs.get at h
  unfold KMap.has at hh
  cases hg : KMap.get? a n with
  | none => rw [hg] at hh; cases hh
  | some x =>
    rw [hg] at h
    obtain ⟨tag, v⟩ := x
    have := getAs_bind_int h rfl
    exact ⟨tag, by rw [show v = .int i from this]⟩

theorem mem_intList {a : Attrs} {n : Bytes} {l : List Int} (h : intList a n = .ok l) (i : Int) :
    i ∈ l ↔ Ipp.Spec.Declares (KMap.get? a n) (.int i) := by
  unfold intList at h
  rw [Outcome.bind_eq_ok] at h
  obtain ⟨vs, hvs, h⟩ := h
  cases h
  obtain ⟨rfl, hty⟩ := getList_values hvs
  have hd : Ipp.Spec.Declares (KMap.get? a n) (.int i) ↔ .int i ∈ values (KMap.get? a n) := by
    cases hg : KMap.get? a n with
    | none => simp [Ipp.Spec.Declares, values]
    | some x =>
      obtain ⟨t, v⟩ := x
      cases v <;> simp [Ipp.Spec.Declares, values]
  rw [hd, List.mem_map]
  constructor
  · rintro ⟨v, hv, rfl⟩
    have := intOf_ty (hty v hv)
    rw [← this]; exact hv
  · intro hi; exact ⟨_, hi, rfl⟩

/-! ## The two ways of sending a job -/

/-- The request of Create-Job. -/
def IsCreate (p : Printer) (job : PrintJob) (fileName : Bytes) (m : Msg) : Prop :=
  m.opOrStatus = 5 ∧ m.jobAttrs = [job.jobAttrs] ∧ m.printerAttrs = [] ∧
    m.opAttrs = KMap.insertAll [(ascii "job-name", (0x42, .str fileName))] (baseOpAttrs p.addr p.user)

/-- The request of Send-Document. -/
def IsSend (p : Printer) (job : PrintJob) (id : Int) (m : Msg) : Prop :=
  m.opOrStatus = 6 ∧ m.jobAttrs = [[]] ∧ m.printerAttrs = [] ∧
    m.opAttrs = KMap.insertAll (KMap.assign (KMap.assign job.opAttrs (ascii "job-id") (0x21, .int id))
      (ascii "last-document") (0x22, .bool true)) (baseOpAttrs p.addr p.user)

/-- The request of Print-Job. -/
def IsPrint (p : Printer) (job : PrintJob) (fileName : Bytes) (m : Msg) : Prop :=
  m.opOrStatus = 2 ∧ m.jobAttrs = [job.jobAttrs] ∧ m.printerAttrs = [] ∧
    m.opAttrs = KMap.insertAll (KMap.assign job.opAttrs (ascii "job-name") (0x42, .str fileName)) (baseOpAttrs p.addr p.user)

theorem sendDocument_cases (env : Env) (p : Printer) (job : PrintJob) (f : ConvertFun) (id : Int) :
    Dead (sendDocument env p job f id) ∨
    ∃ m bytes tail, IsSend p job id m ∧ (sendDocument env p job f id).events = .openStream m bytes :: tail ∧ Quiet tail := by
  unfold sendDocument
  rcases lift_bind (mkMsg p 0x0006
      (KMap.assign (KMap.assign job.opAttrs (ascii "job-id") (0x21, .int id)) (ascii "last-document") (0x22, .bool true)) [] [])
      (fun m => doPrint env (nextReqId env.reqId) job f m) with ⟨m, hm, he⟩ | hd
  · obtain ⟨h1, h2, h3, h4⟩ := mkMsg_ok hm
    rw [he]
    rcases doPrint_cases env (nextReqId env.reqId) job f m with hd | ⟨b, t, _, h5, h6⟩
    · exact .inl hd
    · exact .inr ⟨m, b, t, ⟨h1, h2, h3, h4⟩, h5, h6⟩
  · exact .inl hd

/-- After the reply to Create-Job: the document is sent only if the job was created. -/
theorem createResult_cases (env : Env) (p : Printer) (job : PrintJob) (f : ConvertFun) (r : Except Bytes Msg)
    (hr : received env.createReply = .ok r) :
    Dead (createResult env p job f r) ∨
    ((createResult env p job f r).events = [] ∧ (∃ t, (createResult env p job f r).out = .ok (some (.createFailed t))) ∧
      ∀ id, ¬ Created env.createReply id) ∨
    ∃ id m bytes tail, Created env.createReply id ∧ IsSend p job id m ∧
      (createResult env p job f r).events = .openStream m bytes :: tail ∧ Quiet tail := by
  cases r with
  | error e =>
    refine .inr (.inl ⟨rfl, ⟨e, rfl⟩, ?_⟩)
    rintro id ⟨data, m, rest, tag, a, as, hc, hd, _⟩
    rw [hc] at hr
    simp only [received, hd] at hr
    cases hr
  | ok resp =>
    obtain ⟨data, rest, hc, hd⟩ : ∃ data rest, env.createReply = .ok data ∧ decodeMsg data = .ok (resp, rest) := by
      cases hcr : env.createReply with
      | error t => rw [hcr] at hr; cases hr
      | ok data =>
        rw [hcr] at hr
        simp only [received] at hr
        cases hdm : decodeMsg data with
        | ok x => rw [hdm] at hr; cases hr; exact ⟨data, x.2, rfl, hdm⟩
        | throws e => rw [hdm] at hr; cases hr
        | ub => rw [hdm] at hr; cases hr
        | hang => rw [hdm] at hr; cases hr
    simp only [createResult]
    unfold afterCreate
    simp only
    split
    · rename_i hcond
      rcases lift_bind (getInteger (resp.jobAttrs.head?.getD []) (ascii "job-id")) (fun id => sendDocument env p job f id) with
        ⟨id, hid, he⟩ | hdead
      · rw [he]
        obtain ⟨tag, hg⟩ := getInteger_ok hid hcond.2
        rcases sendDocument_cases env p job f id with h | ⟨m, b, t, h1, h2, h3⟩
        · exact .inl h
        · refine .inr (.inr ⟨id, m, b, t, ?_, h1, h2, h3⟩)
          cases hj : resp.jobAttrs with
          | nil => rw [hj] at hg; cases hg
          | cons a as =>
            rw [hj] at hg
            exact ⟨data, resp, rest, tag, a, as, hc, hd, hcond.1, hj, hg⟩
      · exact .inl hdead
    · rename_i hcond
      rcases lift_bind (getString resp.opAttrs (ascii "status-message") (ascii "unknown"))
          (fun s => (pure (some (.createFailed s)) : Act (Option RunError))) with ⟨s, hs, he⟩ | hdead
      · rw [he]
        refine .inr (.inl ⟨rfl, ⟨s, rfl⟩, ?_⟩)
        rintro id ⟨data', m, rest', tag, a, as, hc', hd', hst, hja, hg⟩
        rw [hc] at hc'; cases hc'
        rw [hd] at hd'; cases hd'
        apply hcond
        refine ⟨hst, ?_⟩
        rw [hja]
        show KMap.has a (ascii "job-id") = true
        unfold KMap.has
        rw [hg]; rfl
      · exact .inl hdead

theorem createAndSend_cases (env : Env) (p : Printer) (job : PrintJob) (f : ConvertFun) (fileName : Bytes) :
    Dead (createAndSend env p job f fileName) ∨
    ∃ c cb, IsCreate p job fileName c ∧
      (((createAndSend env p job f fileName).events = [.post c cb] ∧ ∀ e, (createAndSend env p job f fileName).out ≠ .ok e) ∨
       ((createAndSend env p job f fileName).events = [.post c cb] ∧
          (∃ t, (createAndSend env p job f fileName).out = .ok (some (.createFailed t))) ∧ ∀ id, ¬ Created env.createReply id) ∨
       ∃ id m bytes tail, Created env.createReply id ∧ IsSend p job id m ∧
          (createAndSend env p job f fileName).events = .post c cb :: .openStream m bytes :: tail ∧ Quiet tail) := by
  unfold createAndSend
  rcases lift_bind (mkMsg p 0x0005 [(ascii "job-name", (0x42, .str fileName))] job.jobAttrs [])
      (fun m => doRequest env.reqId m env.createReply >>= fun r => createResult env p job f r) with ⟨m, hm, he⟩ | hd
  · rw [he]
    obtain ⟨h1, h2, h3, h4⟩ := mkMsg_ok hm
    unfold doRequest
    cases hb : encodeMsg env.reqId m with
    | ok bytes =>
      cases hr : received env.createReply with
      | ok r =>
        have heq : ((Act.lift (.ok bytes) >>= fun bytes => Act.emit [.post m bytes] >>= fun _ => Act.lift (.ok r)) >>=
            fun r => createResult env p job f r) =
            ⟨.post m bytes :: (createResult env p job f r).events, (createResult env p job f r).out⟩ := by
          rw [lift_bind_ok, emit_bind]
          show Act.bind _ _ = _
          unfold Act.bind Act.lift
          simp
        rw [heq]
        right
        refine ⟨m, bytes, ⟨h1, h2, h3, h4⟩, ?_⟩
        rcases createResult_cases env p job f r hr with ⟨ha, hb⟩ | ⟨ha, hb, hc⟩ | ⟨id, m', b', t, hc, hs, hev, hq⟩
        · left; exact ⟨by rw [ha], hb⟩
        · right; left; exact ⟨by rw [ha], hb, hc⟩
        · right; right; exact ⟨id, m', b', t, hc, hs, by rw [hev], hq⟩
      | throws e => exact .inr ⟨m, bytes, ⟨h1, h2, h3, h4⟩, .inl ⟨rfl, fun e h => nomatch h⟩⟩
      | ub => exact .inr ⟨m, bytes, ⟨h1, h2, h3, h4⟩, .inl ⟨rfl, fun e h => nomatch h⟩⟩
      | hang => exact .inr ⟨m, bytes, ⟨h1, h2, h3, h4⟩, .inl ⟨rfl, fun e h => nomatch h⟩⟩
    | throws e => exact .inl ⟨rfl, fun e h => nomatch h⟩
    | ub => exact .inl ⟨rfl, fun e h => nomatch h⟩
    | hang => exact .inl ⟨rfl, fun e h => nomatch h⟩
  · exact .inl hd

theorem printJob_cases (env : Env) (p : Printer) (job : PrintJob) (f : ConvertFun) (fileName : Bytes) :
    Dead (printJob env p job f fileName) ∨
    ∃ m bytes tail, IsPrint p job fileName m ∧ (printJob env p job f fileName).events = .openStream m bytes :: tail ∧ Quiet tail := by
  unfold printJob
  rcases lift_bind (mkMsg p 0x0002 (KMap.assign job.opAttrs (ascii "job-name") (0x42, .str fileName)) job.jobAttrs [])
      (fun m => doPrint env env.reqId job f m) with ⟨m, hm, he⟩ | hd
  · obtain ⟨h1, h2, h3, h4⟩ := mkMsg_ok hm
    rw [he]
    rcases doPrint_cases env env.reqId job f m with hd | ⟨b, t, _, h5, h6⟩
    · exact .inl hd
    · exact .inr ⟨m, b, t, ⟨h1, h2, h3, h4⟩, h5, h6⟩
  · exact .inl hd

/-- How far `runJob` gets: nowhere; an error without any event; or delivery. -/
theorem tryRun_cases (env : Env) (p : Printer) (job : PrintJob) (input fileName : Bytes) (pages : Int) :
    Dead (tryRun env p job input fileName pages) ∨
    ((tryRun env p job input fileName pages).events = [] ∧
      ((∃ e j', finalize env.pipelines input pages job = .ok (some e, j') ∧
          (tryRun env p job input fileName pages).out = .ok (some (.job e))) ∨
       (∃ j', finalize env.pipelines input pages job = .ok (none, j') ∧ ¬ Convertible env.pipelines input j'.targetFormat ∧
          (tryRun env p job input fileName pages).out = .ok (some .noConversion)))) ∨
    ∃ ops j' f, intList p.attrs (ascii "operations-supported") = .ok ops ∧
      finalize env.pipelines input pages job = .ok (none, j') ∧ Convertible env.pipelines input j'.targetFormat ∧
      tryRun env p job input fileName pages = deliver env p j' f fileName ops := by
  unfold tryRun
  rcases lift_bind (intList p.attrs (ascii "operations-supported"))
    (fun ops => Act.lift (finalize env.pipelines input pages job) >>= fun r => afterFinalize env p input fileName ops r) with
    ⟨ops, ho, he⟩ | hd
  · rw [he]
    rcases lift_bind (finalize env.pipelines input pages job) (fun r => afterFinalize env p input fileName ops r) with
      ⟨⟨e, j'⟩, hf, he⟩ | hd
    · rw [he]
      cases e with
      | some e => exact .inr (.inl ⟨rfl, .inl ⟨e, j', hf, rfl⟩⟩)
      | none =>
        have hcf := C29_convert_fun env.pipelines input j'.targetFormat
        simp only [afterFinalize]
        cases hg : getConvertFun env.pipelines input j'.targetFormat with
        | none =>
          refine .inr (.inl ⟨rfl, .inr ⟨j', hf, fun hc => ?_, rfl⟩⟩)
          obtain ⟨f, hf'⟩ := hcf.mpr hc
          rw [hg] at hf'; cases hf'
        | some f => exact .inr (.inr ⟨ops, j', f, ho, hf, hcf.mp ⟨f, hg⟩, rfl⟩)
    · exact .inl hd
  · exact .inl hd

theorem catchAll_events (x : Act (Option RunError)) : (catchAll x).events = x.events := by
  unfold catchAll; split <;> rfl

theorem catchAll_ends {x : Act (Option RunError)} {e : Option RunError} (h : Ends (catchAll x) e) : x.out = .ok e := by
  obtain ⟨h1, h2⟩ := h
  unfold catchAll at h1
  split at h1
  · injection h1 with h1
    exact absurd h1.symm (h2 _)
  · exact h1

theorem startsWith_file (p : Printer) : Text.startsWith p.addr (ascii "file://") = true ↔ IsFile p := by
  unfold Text.startsWith IsFile
  constructor
  · intro h
    split at h
    · rw [beq_iff_eq] at h
      refine ⟨p.addr.drop (ascii "file://").length, ?_⟩
      conv => lhs; lhs; rw [← h]
      exact List.take_append_drop ..
    · cases h
  · rintro ⟨t, ht⟩
    rw [← ht]
    simp

theorem finalize_oneStage {pl : Pipelines} {input : Bytes} {pages : Int} {j j' : PrintJob}
    (h : finalize pl input pages j = .ok (none, j')) : j'.oneStage = j.oneStage := by
  obtain ⟨r⟩ := finalize_run h
  have ha := after_frame r
  have hf := adjustRaster_frame r.h8
  have hb := before_raster r
  rw [ha.oneStage, hf.oneStage, hb.oneStage]

/-! ## C52 -/

/-- C52: if the printer supports Create-Job and Send-Document, and one-stage printing was not asked for, the first request is
Create-Job, with the job attributes. The second and last one, if there is one, is Send-Document, without job attributes, for the job that
the printer says it has created. There is none, and thus no document, when the printer has not created the job. When `runJob` ends without
exception then either it returns the error of `finalize` or of the missing conversion and sends nothing, or it sends Create-Job, and it
sends the document if the job was created. -/
theorem C52_two_stage (env : Env) (p : Printer) (job : PrintJob) (input fileName : Bytes) (pages : Int) (hfile : ¬ IsFile p)
    (hts : TwoStage p job) :
    let r := runJob env p job input fileName pages
    (requests r.events = [] ∨
      ∃ j' c, finalize env.pipelines input pages job.copy = .ok (none, j') ∧ IsCreate p j' fileName c ∧
        ((requests r.events = [c] ∧ ∀ m, ¬ SendsDocument r.events m) ∨
         ∃ id m, Created env.createReply id ∧ IsSend p j' id m ∧ requests r.events = [c, m] ∧ SendsDocument r.events m)) ∧
    (∀ e, Ends r e →
      (requests r.events = [] ∧ ((∃ x, e = some (.job x)) ∨ e = some .noConversion)) ∨
      (∃ c t, requests r.events = [c] ∧ e = some (.createFailed t) ∧ ∀ id, ¬ Created env.createReply id) ∨
      ∃ c m, requests r.events = [c, m] ∧ SendsDocument r.events m) := by
  intro r
  have hev : r.events = (tryRun env p job.copy input fileName pages).events := catchAll_events _
  have hend : ∀ e, Ends r e → (tryRun env p job.copy input fileName pages).out = .ok e := fun e h => catchAll_ends h
  rw [hev]
  rcases tryRun_cases env p job.copy input fileName pages with ⟨h1, h2⟩ | ⟨h1, h2⟩ | ⟨ops, j', f, ho, hf, hc, he⟩
  · rw [h1]
    exact ⟨.inl rfl, fun e he => absurd (hend e he) (h2 e)⟩
  · rw [h1]
    refine ⟨.inl rfl, fun e he => .inl ⟨rfl, ?_⟩⟩
    have he := hend e he
    rcases h2 with ⟨x, j', _, ho⟩ | ⟨j', _, _, ho⟩
    · rw [ho] at he; cases he; exact .inl ⟨x, rfl⟩
    · rw [ho] at he; cases he; exact .inr rfl
  · rw [he] at hend ⊢
    have hone : j'.oneStage = false := by rw [finalize_oneStage hf]; exact hts.1
    have hd : deliver env p j' f fileName ops = createAndSend env p j' f fileName := by
      unfold deliver
      rw [if_neg (fun h => hfile ((startsWith_file p).mp h))]
      unfold transmit
      rw [if_pos]
      exact ⟨hone, List.contains_iff_mem.mpr ((mem_intList ho 5).mpr hts.2.1), List.contains_iff_mem.mpr ((mem_intList ho 6).mpr hts.2.2)⟩
    rw [hd] at hend ⊢
    rcases createAndSend_cases env p j' f fileName with ⟨h1, h2⟩ | ⟨c, cb, hcr, h⟩
    · rw [h1]; exact ⟨.inl rfl, fun e he => absurd (hend e he) (h2 e)⟩
    · rcases h with ⟨h1, h2⟩ | ⟨h1, ⟨t, h2⟩, h3⟩ | ⟨id, m, b, tail, h1, h2, h3, h4⟩
      · rw [h1]
        refine ⟨.inr ⟨j', c, hf, hcr, .inl ⟨rfl, ?_⟩⟩, fun e he => absurd (hend e he) (h2 e)⟩
        rintro m ⟨b, hb⟩; simp at hb
      · rw [h1]
        refine ⟨.inr ⟨j', c, hf, hcr, .inl ⟨rfl, ?_⟩⟩, fun e he => ?_⟩
        · rintro m ⟨b, hb⟩; simp at hb
        · have he := hend e he
          rw [h2] at he; cases he
          exact .inr (.inl ⟨c, t, rfl, rfl, h3⟩)
      · have hreq : requests (.post c cb :: .openStream m b :: tail) = [c, m] := by
          show c :: m :: requests tail = _
          rw [requests_quiet h4]
        have hs : SendsDocument (.post c cb :: .openStream m b :: tail) m := ⟨b, by simp⟩
        rw [h3]
        exact ⟨.inr ⟨j', c, hf, hcr, .inr ⟨id, m, h1, h2, hreq, hs⟩⟩, fun e _ => .inr (.inr ⟨c, m, hreq, hs⟩)⟩

/-- C52: otherwise there is one request at most, Print-Job, with the job attributes and the document; and when `runJob` ends without
exception it has been sent, unless `finalize` failed or there is no conversion. -/
theorem C52_one_stage (env : Env) (p : Printer) (job : PrintJob) (input fileName : Bytes) (pages : Int) (hfile : ¬ IsFile p)
    (hts : ¬ TwoStage p job) :
    let r := runJob env p job input fileName pages
    (requests r.events = [] ∨
      ∃ j' m, finalize env.pipelines input pages job.copy = .ok (none, j') ∧ IsPrint p j' fileName m ∧ requests r.events = [m] ∧
        SendsDocument r.events m) ∧
    (∀ e, Ends r e →
      (requests r.events = [] ∧ ((∃ x, e = some (.job x)) ∨ e = some .noConversion)) ∨ ∃ m, requests r.events = [m]) := by
  intro r
  have hev : r.events = (tryRun env p job.copy input fileName pages).events := catchAll_events _
  have hend : ∀ e, Ends r e → (tryRun env p job.copy input fileName pages).out = .ok e := fun e h => catchAll_ends h
  rw [hev]
  rcases tryRun_cases env p job.copy input fileName pages with ⟨h1, h2⟩ | ⟨h1, h2⟩ | ⟨ops, j', f, ho, hf, hc, he⟩
  · rw [h1]
    exact ⟨.inl rfl, fun e he => absurd (hend e he) (h2 e)⟩
  · rw [h1]
    refine ⟨.inl rfl, fun e he => .inl ⟨rfl, ?_⟩⟩
    have he := hend e he
    rcases h2 with ⟨x, j', _, ho⟩ | ⟨j', _, _, ho⟩
    · rw [ho] at he; cases he; exact .inl ⟨x, rfl⟩
    · rw [ho] at he; cases he; exact .inr rfl
  · rw [he] at hend ⊢
    have hd : deliver env p j' f fileName ops = printJob env p j' f fileName := by
      unfold deliver
      rw [if_neg (fun h => hfile ((startsWith_file p).mp h))]
      unfold transmit
      rw [if_neg]
      rintro ⟨h1, h2, h3⟩
      refine hts ⟨?_, (mem_intList ho 5).mp (List.contains_iff_mem.mp h2), (mem_intList ho 6).mp (List.contains_iff_mem.mp h3)⟩
      rw [finalize_oneStage hf] at h1; exact h1
    rw [hd] at hend ⊢
    rcases printJob_cases env p j' f fileName with ⟨h1, h2⟩ | ⟨m, b, tail, h1, h2, h3⟩
    · rw [h1]; exact ⟨.inl rfl, fun e he => absurd (hend e he) (h2 e)⟩
    · have hreq : requests (.openStream m b :: tail) = [m] := by
        show m :: requests tail = _
        rw [requests_quiet h3]
      rw [h2]
      exact ⟨.inr ⟨j', m, hf, h1, hreq, b, by simp⟩, fun e _ => .inr ⟨m, hreq⟩⟩

/-- C52: nothing is sent to a fake printer. -/
theorem C52_file (env : Env) (p : Printer) (job : PrintJob) (input fileName : Bytes) (pages : Int) (hfile : IsFile p) :
    requests (runJob env p job input fileName pages).events = [] := by
  have hev : (runJob env p job input fileName pages).events = (tryRun env p job.copy input fileName pages).events := catchAll_events _
  rw [hev]
  rcases tryRun_cases env p job.copy input fileName pages with ⟨h1, _⟩ | ⟨h1, _⟩ | ⟨ops, j', f, _, _, _, he⟩
  · rw [h1]; rfl
  · rw [h1]; rfl
  · rw [he]
    unfold deliver
    rw [if_pos ((startsWith_file p).mpr hfile)]
    have hq : ∀ blocks : List Bytes, Quiet (blocks.map Event.file) := by
      intro blocks e he
      obtain ⟨b, _, rfl⟩ := List.mem_map.mp he
      rfl
    unfold printToFile
    rcases lift_bind (defaultExtension j'.targetFormat) (fun ext => do
      Act.emit [.create (ascii "ippclient-debug-" ++ fileName ++ ext)]
      fileEvents (ascii "ippclient-debug-" ++ fileName ++ ext) (env.convert f j')) with ⟨ext, _, h⟩ | h
    · rw [h, emit_bind]
      refine requests_quiet (quiet_append (fun e he => by rw [List.mem_singleton.mp he]; rfl) ?_)
      obtain ⟨blocks, r⟩ := env.convert f j'
      unfold fileEvents
      split
      · exact quiet_append (hq _) (fun e he => by rw [List.mem_singleton.mp he]; rfl)
      all_goals exact hq _
    · rw [h.1]; rfl

/-- The attributes of the request with which a document is sent: the operation attributes of the job, those that belong to the
operation, and those that every request has. -/
theorem C52_document_attributes (p : Printer) (j' : PrintJob) (fileName : Bytes) (id : Int) (m : Msg) (hs : KMap.Sorted j'.opAttrs)
    (hb : ∀ k ∈ [ascii "attributes-charset", ascii "attributes-natural-language", ascii "printer-uri", ascii "requesting-user-name"],
      KMap.get? j'.opAttrs k = none) :
    (IsSend p j' id m →
      KMap.get? m.opAttrs (ascii "job-id") = some (0x21, .int id) ∧ KMap.get? m.opAttrs (ascii "last-document") = some (0x22, .bool true) ∧
      KMap.get? m.opAttrs (ascii "printer-uri") = some (0x45, .str p.addr) ∧
      ∀ k, k ≠ ascii "job-id" → k ≠ ascii "last-document" → ∀ a, KMap.get? j'.opAttrs k = some a → KMap.get? m.opAttrs k = some a) ∧
    (IsPrint p j' fileName m →
      KMap.get? m.opAttrs (ascii "job-name") = some (0x42, .str fileName) ∧
      KMap.get? m.opAttrs (ascii "printer-uri") = some (0x45, .str p.addr) ∧
      ∀ k, k ≠ ascii "job-name" → ∀ a, KMap.get? j'.opAttrs k = some a → KMap.get? m.opAttrs k = some a) := by
  have huri := hb (ascii "printer-uri") (by simp)
  have hbase : KMap.get? (baseOpAttrs p.addr p.user) (ascii "printer-uri") = some (0x45, .str p.addr) := by
    unfold baseOpAttrs
    have e1 : ascii "printer-uri" ≠ ascii "attributes-charset" := by decide +kernel
    have e2 : ascii "printer-uri" ≠ ascii "attributes-natural-language" := by decide +kernel
    simp [KMap.get?, e1, e2]
  constructor
  · rintro ⟨_, _, _, h4⟩
    have hs' := KMap.sorted_assign (KMap.sorted_assign hs (ascii "job-id") ((0x21, .int id) : Attr)) (ascii "last-document")
      ((0x22, .bool true) : Attr)
    have hg : ∀ k, KMap.get? m.opAttrs k = ((if k = ascii "last-document" then some (0x22, .bool true) else
        if k = ascii "job-id" then some (0x21, .int id) else KMap.get? j'.opAttrs k)).or
          (KMap.get? (baseOpAttrs p.addr p.user) k) := fun k => by
      rw [h4, KMap.get?_insertAll hs', KMap.get?_assign_any, KMap.get?_assign_any]
    refine ⟨?_, ?_, ?_, fun k h1 h2 a ha => ?_⟩
    · rw [hg, if_neg (by decide +kernel), if_pos rfl]; rfl
    · rw [hg, if_pos rfl]; rfl
    · rw [hg, if_neg (by decide +kernel), if_neg (by decide +kernel), huri, hbase]; rfl
    · rw [hg, if_neg h2, if_neg h1, ha]; rfl
  · rintro ⟨_, _, _, h4⟩
    have hs' := KMap.sorted_assign hs (ascii "job-name") ((0x42, .str fileName) : Attr)
    have hg : ∀ k, KMap.get? m.opAttrs k = ((if k = ascii "job-name" then some (0x42, .str fileName) else
        KMap.get? j'.opAttrs k)).or (KMap.get? (baseOpAttrs p.addr p.user) k) := fun k => by
      rw [h4, KMap.get?_insertAll hs', KMap.get?_assign_any]
    refine ⟨?_, ?_, fun k h1 a ha => ?_⟩
    · rw [hg, if_pos rfl]; rfl
    · rw [hg, if_neg (by decide +kernel), huri, hbase]; rfl
    · rw [hg, if_neg h1, ha]; rfl

/-- A printer that supports Create-Job and Send-Document, and what it answers to Create-Job: job 7. -/
def examplePrinter2 : Printer :=
  { addr := ascii "ipp://x/ipp/print",
    attrs := [(ascii "document-format-supported", (0x49, .set [.str pwg])),
              (ascii "operations-supported", (0x23, .set [.int 2, .int 5, .int 6]))] }

/-- An environment in which job 7 is created and printed. -/
def exampleEnv : Env :=
  { pipelines := defaultPipelines, reqId := 1, convert := fun _ _ => ([[1, 2], [], [3]], .ok none), printReply := .ok [1, 1, 0, 0, 0, 0, 0, 2, 3],
    createReply := .ok ([1, 1, 0, 0, 0, 0, 0, 1, 2, 0x21, 0, 6] ++ ascii "job-id" ++ [0, 4, 0, 0, 0, 7, 3]) }

/-- The operations that are requested, whether the document is sent in blocks and ended, and no error comes back. -/
example :
    (let r := runJob exampleEnv examplePrinter2 (PrintJob.new examplePrinter2.attrs []) pdf (ascii "a.pdf") 1
     (requests r.events).map Msg.opOrStatus = [5, 6] ∧ r.events.drop 2 = [.block [1, 2], .block [3], .finish] ∧ r.out = .ok none) := by
  decide +kernel

example : TwoStage examplePrinter2 (PrintJob.new examplePrinter2.attrs []) ∧ ¬ IsFile examplePrinter2 ∧ Created exampleEnv.createReply 7 ∧
    ¬ TwoStage examplePrinter2 { PrintJob.new examplePrinter2.attrs [] with oneStage := true } := by
  have h : KMap.get? examplePrinter2.attrs (ascii "operations-supported") = some (0x23, .set [.int 2, .int 5, .int 6]) := by decide +kernel
  refine ⟨⟨rfl, ?_, ?_⟩, ?_, ?_, ?_⟩
  · unfold Supports; rw [h]; simp [Ipp.Spec.Declares]
  · unfold Supports; rw [h]; simp [Ipp.Spec.Declares]
  · unfold IsFile; decide +kernel
  · exact ⟨_, { opOrStatus := 0, jobAttrs := [[(ascii "job-id", (0x21, .int 7))]] }, [], 0x21, _, [], rfl, by decide +kernel, by decide, rfl,
      by decide +kernel⟩
  · rintro ⟨h, _⟩; cases h

/-! ## C37 -/

/-- The job has not been given a document format. -/
def NoFormatSet (job : PrintJob) : Prop := KMap.get? job.opAttrs (ascii "document-format") = none

/-- The full C37: for a job made by the printer object, on which no document format was set, running it with any of the
advertised input formats does not fail for want of a target format or of a conversion. -/
def C37_full : Prop :=
  ∀ (env : Env) (p : Printer) (job : PrintJob) (formats : List Bytes) (input fileName : Bytes) (pages : Int),
    inputFormats env.pipelines p = .ok formats → input ∈ formats → createJob p = .ok job →
      (runJob env p job input fileName pages).out ≠ .ok (some (.job .noTarget)) ∧
      (runJob env p job input fileName pages).out ≠ .ok (some .noConversion)

/-- The targets of the pipelines are real formats. -/
def RealTargets (pl : Pipelines) : Prop := ∀ i t f, ((i, t), f) ∈ pl → t ≠ octetStream ∧ t ≠ []

/-- The target format that is found. -/
theorem target_found {pl : Pipelines} (hpl : RealTargets pl) {input : Bytes} (hi : input ≠ octetStream) (hi0 : input ≠ [])
    {job : PrintJob} (hset : NoFormatSet job) {supported : List Bytes}
    (hs : supportedStrs sDocumentFormat job.printerAttrs = .ok supported)
    (hmem : ∃ t, getTargetFormat pl input (supported ++ job.additional) = some t) {target : Bytes}
    (h : determineTargetFormat pl input job = .ok target) :
    target ≠ octetStream ∧ target ≠ [] ∧ Convertible pl input target := by
  have hreal : ∀ t, Convertible pl input t → t ≠ octetStream ∧ t ≠ [] := by
    rintro t (⟨f, hf⟩ | rfl)
    · exact hpl _ _ _ hf
    · exact ⟨hi, hi0⟩
  suffices hc : Convertible pl input target from ⟨(hreal _ hc).1, (hreal _ hc).2, hc⟩
  unfold determineTargetFormat at h
  rw [Outcome.bind_eq_ok] at h
  obtain ⟨d, hd, h⟩ := h
  rw [isSet_top rfl] at h
  have hh : (KMap.get? job.opAttrs sDocumentFormat.name).isSome = false := by
    have hset : KMap.get? job.opAttrs sDocumentFormat.name = none := hset
    rw [hset]; rfl
  rw [hh, Outcome.bind_ok] at h
  by_cases hcan : canConvert pl input d = true
  · have hcd : Convertible pl input d := (C29_convert_fun pl input d).mp (by
      unfold canConvert at hcan
      exact Option.isSome_iff_exists.mp hcan)
    have hst : startFormat pl input d false = d := by unfold startFormat; rw [if_neg (by simp [hcan])]
    rw [hst] at h
    unfold betterFormat at h
    rw [if_neg (hreal d hcd).1] at h
    cases h
    exact hcd
  · have hcan : canConvert pl input d = false := by simpa using hcan
    have hst : startFormat pl input d false = octetStream := by unfold startFormat; rw [if_pos ⟨rfl, hcan⟩]
    rw [hst] at h
    unfold betterFormat at h
    rw [if_pos rfl, hs, Outcome.bind_ok] at h
    obtain ⟨t, ht⟩ := hmem
    rw [ht] at h
    cases h
    exact (C29_convert_fun pl input t).mp (C29_target_format pl input _ t ht).2.1

theorem finalize_error {pl : Pipelines} {input : Bytes} {pages : Int} {j j' : PrintJob} {e : JobError}
    (h : finalize pl input pages j = .ok (some e, j')) (he : e = .noTarget) :
    ∃ target, determineTargetFormat pl input j = .ok target ∧ (target = [] ∨ target = octetStream) := by
  subst he
  unfold finalize at h
  rw [Outcome.bind_eq_ok] at h
  obtain ⟨target, ht, h⟩ := h
  rw [Outcome.bind_eq_ok] at h
  obtain ⟨j1, h1, h⟩ := h
  obtain ⟨f, rfl, _⟩ := setDocumentFormat_ok h1
  refine ⟨target, ht, ?_⟩
  split at h
  · assumption
  · rw [Outcome.bind_eq_ok] at h
    obtain ⟨j2, h2, h⟩ := h
    unfold finalizePaper at h
    rw [Outcome.bind_eq_ok] at h
    obtain ⟨⟨ok, j3⟩, h3, h⟩ := h
    simp only at h
    split at h
    · rw [Outcome.bind_eq_ok] at h
      obtain ⟨j4, h4, h⟩ := h
      cases h
    · cases h

theorem bind_out {α β : Type} {x : Act α} {f : α → Act β} {b : β} (h : (x >>= f).out = .ok b) :
    ∃ a, x.out = .ok a ∧ (f a).out = .ok b := by
  change (Act.bind x f).out = .ok b at h
  unfold Act.bind at h
  split at h
  · exact ⟨_, by assumption, h⟩
  · cases h
  · cases h
  · cases h

/-- An error from the delivery. -/
def Late : RunError → Prop
  | .job _ => False
  | .noConversion => False
  | _ => True

theorem doPrint_late {env : Env} {id : Nat} {job : PrintJob} {f : ConvertFun} {m : Msg} {e : RunError}
    (h : (doPrint env id job f m).out = .ok (some e)) : Late e := by
  unfold doPrint at h
  obtain ⟨_, _, h⟩ := bind_out h
  obtain ⟨_, _, h⟩ := bind_out h
  obtain ⟨_, _, h⟩ := bind_out h
  unfold convertAndAwait at h
  split at h
  split at h
  · unfold printResult at h
    split at h
    · cases h; trivial
    · simp only at h
      obtain ⟨⟨m, _⟩, _, h⟩ := bind_out h
      simp only at h
      split at h
      · unfold showJob at h
        split at h
        · cases h
        · split at h
          · obtain ⟨_, _, h⟩ := bind_out h
            obtain ⟨_, _, h⟩ := bind_out h
            cases h
          · cases h
      · obtain ⟨_, _, h⟩ := bind_out h
        cases h; trivial
  · cases h; trivial
  · cases h
  · cases h
  · cases h

theorem deliver_late {env : Env} {p : Printer} {job : PrintJob} {f : ConvertFun} {fileName : Bytes} {ops : List Int} {e : RunError}
    (h : (deliver env p job f fileName ops).out = .ok (some e)) : Late e := by
  unfold deliver at h
  split at h
  · unfold printToFile at h
    obtain ⟨ext, _, h⟩ := bind_out h
    obtain ⟨_, _, h⟩ := bind_out h
    unfold fileEvents at h
    split at h <;> cases h
  · unfold transmit at h
    split at h
    · unfold createAndSend at h
      obtain ⟨_, _, h⟩ := bind_out h
      obtain ⟨r, _, h⟩ := bind_out h
      cases r with
      | error t => cases h; trivial
      | ok resp =>
        simp only [createResult] at h
        unfold afterCreate at h
        simp only at h
        split at h
        · obtain ⟨_, _, h⟩ := bind_out h
          unfold sendDocument at h
          obtain ⟨_, _, h⟩ := bind_out h
          exact doPrint_late h
        · obtain ⟨_, _, h⟩ := bind_out h
          cases h; trivial
    · unfold printJob at h
      obtain ⟨_, _, h⟩ := bind_out h
      exact doPrint_late h

/-- The errors in question come from the target format. -/
theorem runJobWith_target (env : Env) (p : Printer) (job : PrintJob) (input fileName : Bytes) (pages : Int)
    (hu : NoFormatSet job)
    (h : ∀ target, determineTargetFormat env.pipelines input job = .ok target → target ≠ octetStream ∧ target ≠ []) :
    (runJobWith env p job input fileName pages).out ≠ .ok (some (.job .noTarget)) ∧
    (runJobWith env p job input fileName pages).out ≠ .ok (some .noConversion) := by
  have key : ∀ e, (runJobWith env p job input fileName pages).out = .ok (some e) → e = .job .noTarget ∨ e = .noConversion → False := by
    intro e he hcase
    have he : (tryRun env p job input fileName pages).out = .ok (some e) := by
      apply catchAll_ends
      refine ⟨he, fun x hx => ?_⟩
      cases hx
      rcases hcase with h | h <;> cases h
    rcases tryRun_cases env p job input fileName pages with ⟨_, h2⟩ | ⟨_, h2⟩ | ⟨ops, j', f, _, _, _, hd⟩
    · exact h2 _ he
    · rcases h2 with ⟨x, j', hf, ho⟩ | ⟨j', hf, hc, ho⟩
      · rw [ho] at he
        cases he
        rcases hcase with hx | hx
        · injection hx with hx
          obtain ⟨t, ht, h3⟩ := finalize_error hf hx
          have := h t ht
          rcases h3 with h3 | h3
          · exact this.2 h3
          · exact this.1 h3
        · cases hx
      · exact hc (C30_target_convertible _ _ _ _ _ hf (fun x hx => by
          have hu : KMap.get? job.opAttrs (ascii "document-format") = none := hu
          rw [hu] at hx; cases hx))
    · rw [hd] at he
      have := deliver_late he
      rcases hcase with rfl | rfl <;> exact this
  exact ⟨fun h => key _ h (.inl rfl), fun h => key _ h (.inr rfl)⟩

/-- C37 for the formats that the printer itself lists: if the input format can be converted to one of them, and is a real format, a
target and a conversion are found, whatever else was set on the job. Missing to the full C37: formats for which the guesses from the
device id are needed, which are lost when the job is copied; and octet-stream, which is listed as input but never accepted. -/
theorem C37_listed_formats_partial (env : Env) (hpl : RealTargets env.pipelines) (p : Printer) (job : PrintJob) (base : List Bytes)
    (hb : documentFormats p = .ok base) (input fileName : Bytes) (pages : Int) (hin : input ∈ Job.possibleInputFormats env.pipelines base)
    (hi : input ≠ octetStream) (hi0 : input ≠ []) (hp : job.printerAttrs = p.attrs) (hset : NoFormatSet job) :
    (runJob env p job input fileName pages).out ≠ .ok (some (.job .noTarget)) ∧
    (runJob env p job input fileName pages).out ≠ .ok (some .noConversion) := by
  refine runJobWith_target env p job.copy input fileName pages hset (fun target ht => ?_)
  have hs : supportedStrs sDocumentFormat job.copy.printerAttrs = .ok base := by
    show strList job.printerAttrs _ = _
    rw [hp]; exact hb
  have hm : ∃ t, getTargetFormat env.pipelines input (base ++ job.copy.additional) = some t := by
    show ∃ t, getTargetFormat env.pipelines input (base ++ []) = some t
    rw [List.append_nil]
    exact ((C29_advertised env.pipelines base).1 input).mp hin
  have := target_found hpl hi hi0 (job := job.copy) hset hs hm ht
  exact ⟨this.1, this.2.1⟩

/-- C37 for a job that is passed on without being copied: all advertised formats but octet-stream. -/
theorem C37_not_copied_partial (env : Env) (hpl : RealTargets env.pipelines) (p : Printer) (job : PrintJob) (formats : List Bytes)
    (hf : inputFormats env.pipelines p = .ok formats) (input fileName : Bytes) (pages : Int) (hin : input ∈ formats)
    (hi : input ≠ octetStream) (hi0 : input ≠ []) (hj : createJob p = .ok job) :
    (runJobWith env p job input fileName pages).out ≠ .ok (some (.job .noTarget)) ∧
    (runJobWith env p job input fileName pages).out ≠ .ok (some .noConversion) := by
  unfold inputFormats at hf
  rw [Outcome.bind_eq_ok] at hf
  obtain ⟨base, hb, hf⟩ := hf
  rw [Outcome.bind_eq_ok] at hf
  obtain ⟨additional, ha, hf⟩ := hf
  cases hf
  unfold createJob at hj
  rw [ha, Outcome.bind_ok] at hj
  cases hj
  refine runJobWith_target env p _ input fileName pages rfl (fun target ht => ?_)
  have hm := ((C29_advertised env.pipelines _).1 input).mp hin
  have := target_found hpl hi hi0 (job := PrintJob.new p.attrs additional) rfl hb hm ht
  exact ⟨this.1, this.2.1⟩

theorem realTargets_default : RealTargets defaultPipelines := by
  intro i t f h
  simp only [defaultPipelines, List.mem_cons, Prod.mk.injEq, List.not_mem_nil, or_false] at h
  rcases h with ⟨⟨_, rfl⟩, _⟩ | ⟨⟨_, rfl⟩, _⟩ | ⟨⟨_, rfl⟩, _⟩ | ⟨⟨_, rfl⟩, _⟩ | ⟨⟨_, rfl⟩, _⟩ | ⟨⟨_, rfl⟩, _⟩ <;> decide +kernel

/-- A printer that lists PWG raster; PDF can be converted to it. -/
example : documentFormats examplePrinter2 = .ok [pwg] ∧ pdf ∈ Job.possibleInputFormats defaultPipelines [pwg] := by decide +kernel

/-- A printer that lists octet-stream only, and mentions PDF in its device id. -/
def guessPrinter : Printer :=
  { addr := ascii "ipp://x/ipp/print",
    attrs := [(ascii "document-format-supported", (0x49, .str octetStream)),
              (ascii "printer-device-id", (0x41, .str (ascii "CMD:PDF;")))] }

/-- C37 is false of the code: PDF is advertised for this printer, but the job that `runJob` works on is a copy which has lost the formats
from the device id. -/
theorem C37_guessed_formats_false : ¬ C37_full := by
  intro h
  have h1 := (h exampleEnv guessPrinter (PrintJob.new guessPrinter.attrs [pdf]) [pdf, octetStream] pdf (ascii "a.pdf") 1
    (by decide +kernel) (by decide +kernel) (by decide +kernel)).1
  exact h1 (by decide +kernel)

/-- C37 is false of the code also without guesses: octet-stream is advertised for this printer, and not accepted. -/
theorem C37_octet_stream_false :
    ∃ formats, inputFormats defaultPipelines guessPrinter = .ok formats ∧ octetStream ∈ formats ∧
      (runJobWith exampleEnv guessPrinter (PrintJob.new guessPrinter.attrs [pdf]) octetStream (ascii "a") 1).out =
        .ok (some (.job .noTarget)) :=
  ⟨[pdf, octetStream], by decide +kernel, by decide +kernel, by decide +kernel⟩

end Verif.Printer
