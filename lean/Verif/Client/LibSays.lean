import Verif.Client.SaysProps
import Verif.Ipp.Warns

/-!
# Everything that ippclient writes to the standard error: utils/ippclient.cpp with lib/ippprinter.cpp and lib/ippmsg.cpp (C117)

`clientSays` has what the program says itself; here is what the library says on the way. Whatever the program says on the standard error comes last: it is said when
the library has returned. Not modelled: debug output (`-v`), what other libraries print, and what the run-time system says about an exception that nobody catches.
-/

set_option linter.unusedVariables false

namespace Verif.Client

open Ipp Job Printer Tools Tools.Spec Printer.Spec Verif.Convert Verif.Ipp.Spec
open Verif.Convert.Spec (AsksHelp)

/-! ## The model -/

/-- What the library's texts have from elsewhere -/
structure LibTalk where
  /-- `Json::dump` -/
  dump : Json → Bytes
  /-- `e.what()`, ippprinter.cpp 589 -/
  what : Bytes
  /-- `std::filesystem::temp_directory_path()` with the separator behind it, ippprinter.cpp 194 -/
  temp : Bytes

/-- ippprinter.cpp 524, 167: a reply is decoded if there is one -/
def replySays (l : LibTalk) : Except Bytes Bytes → Bytes
  | .error _ => []
  | .ok data => decodeSays l.dump data

/-- `_mkMsg` and `_doRequest`, ippprinter.cpp 503-541 -/
def requestSays (l : LibTalk) (reqId : Nat) (m : Outcome Msg) (reply : Except Bytes Bytes) : Bytes :=
  match m with
  | .ok m =>
    match encodeMsg reqId m with
    | .ok _ => replySays l reply
    | _ => encodeSays m
  | _ => []

/-- `_applyOverrides`, ippprinter.cpp 555-591 -/
def overridesSay (l : LibTalk) (files : Files) (a : Attrs) : Bytes :=
  match files.overrides with
  | none => []
  | some text =>
    match files.parse text with
    | .error e => ascii "Bad overrides file: " ++ e ++ [10]
    | .ok json =>
      match (overrideAll json.objectItems a).2 with
      | .throws _ => ascii "Exception applying overrides: " ++ l.what ++ [10]
      | _ => []

/-- ippprinter.cpp 25-47: only a file that does not start with `{` is decoded -/
def fakeSays (l : LibTalk) (text : Bytes) : Bytes := if text.head? = some 123 then [] else decodeSays l.dump text

/-- `refresh`, ippprinter.cpp 15-57 -/
def refreshSays (l : LibTalk) (files : Files) (reqId : Nat) (p : Printer) (reply : Except Bytes Bytes) : Bytes :=
  if Text.startsWith p.addr (ascii "file://") then
    match files.read (p.addr.drop 7) with
    | none => []
    | some text => fakeSays l text ++ match fakeAttrs files p.attrs text with
      | .ok (false, _, a) => overridesSay l files a
      | _ => []
  else requestSays l reqId (mkMsg p 0x000b [] [] []) reply ++ match received reply with
    | .ok r => overridesSay l files (replyAttrs r)
    | _ => []

/-- `doPrint`, ippprinter.cpp 136-188 -/
def streamSays (l : LibTalk) (env : Env) (reqId : Nat) (job : PrintJob) (f : ConvertFun) (m : Outcome Msg) : Bytes :=
  match m with
  | .ok m =>
    match encodeMsg reqId m with
    | .ok _ =>
      match (useCompression job).out, (env.convert f job).2 with
      | .ok _, .ok none => replySays l env.printReply
      | _, _ => []
    | _ => encodeSays m
  | _ => []

/-- ippprinter.cpp 100-112: what follows the reply to Create-Job -/
def afterCreateSays (l : LibTalk) (env : Env) (p : Printer) (job : PrintJob) (f : ConvertFun) (resp : Msg) : Bytes :=
  let respJob := resp.jobAttrs.head?.getD []
  if resp.opOrStatus ≤ 0xff ∧ KMap.has respJob (ascii "job-id") then
    match getInteger respJob (ascii "job-id") with
    | .ok jobId => streamSays l env (nextReqId env.reqId) job f (mkMsg p 0x0006
        (KMap.assign (KMap.assign job.opAttrs (ascii "job-id") (0x21, .int jobId)) (ascii "last-document") (0x22, .bool true)) [] [])
    | _ => []
  else []

/-- ippprinter.cpp 89-118 -/
def createSays (l : LibTalk) (env : Env) (p : Printer) (job : PrintJob) (f : ConvertFun) (fileName : Bytes) : Bytes :=
  requestSays l env.reqId (mkMsg p 0x0005 [(ascii "job-name", (0x42, .str fileName))] job.jobAttrs []) env.createReply ++
    match received env.createReply with
    | .ok (.ok resp) => afterCreateSays l env p job f resp
    | _ => []

/-- ippprinter.cpp 208 -/
def wroteText (l : LibTalk) : Event → Bytes
  | .wrote name => ascii "Wrote " ++ l.temp ++ name ++ [10]
  | _ => []

/-- ippprinter.cpp 79-127 -/
def deliverSays (l : LibTalk) (env : Env) (p : Printer) (job : PrintJob) (f : ConvertFun) (fileName : Bytes) (ops : List Int) : Bytes :=
  if Text.startsWith p.addr (ascii "file://") then (printToFile env job f fileName).events.flatMap (wroteText l)
  else if job.oneStage = false ∧ ops.contains 0x0005 = true ∧ ops.contains 0x0006 = true then createSays l env p job f fileName
  else streamSays l env env.reqId job f (mkMsg p 0x0002 (KMap.assign job.opAttrs (ascii "job-name") (0x42, .str fileName)) job.jobAttrs [])

/-- `runJob`, ippprinter.cpp 59-134 -/
def runSays (l : LibTalk) (env : Env) (p : Printer) (job : PrintJob) (input fileName : Bytes) (pages : Int) : Bytes :=
  match intList p.attrs (ascii "operations-supported"), finalize env.pipelines input pages job with
  | .ok ops, .ok (none, job) =>
    match getConvertFun env.pipelines input job.targetFormat with
    | some f => deliverSays l env p job f fileName ops
    | none => []
  | _, _ => []

/-- `print`, ippclient.cpp 378-529 -/
def printLib (l : LibTalk) (w : World) (p : Printer) (o : Options) (inFile : Bytes) : Bytes :=
  match prepare w p o inFile with
  | .ok (some (j, t)) =>
    match countPages w t inFile with
    | some pages =>
      match saved w o j with
      | .ok (true, _) => runSays l { w.env with reqId := nextId w p, showJobId := o.printJobId } p j.copy t (fileName inFile) pages
      | _ => []
    | none => []
  | _ => []

/-- `identify`, ippprinter.cpp 423-432 -/
def identifyLib (l : LibTalk) (w : World) (p : Printer) : Bytes :=
  if KMap.has p.attrs (ascii "identify-actions-supported") then requestSays l (nextId w p) (mkMsg p 0x003c [] [] []) w.reply else []

/-- `setAttributes`, ippprinter.cpp 434-457, for `set-attrs` -/
def setAttrsLib (l : LibTalk) (w : World) (p : Printer) (text : Bytes) : Bytes :=
  match keyValues (Text.splitString [44] text) with
  | none => []
  | some kvs =>
    match toSet p.attrs kvs [] with
    | .ok attrs => requestSays l (nextId w p) (mkMsg p 0x0013 [] [] attrs) w.reply
    | _ => []

/-- ippclient.cpp 295-530: what the library says while the sub-command is done -/
def commandLib (l : LibTalk) (w : World) (p : Printer) (sub : Bytes) (r : Result) : Bytes :=
  if sub = ascii "info" then []
  else if sub = ascii "identify" then identifyLib l w p
  else if sub = ascii "get-attrs" then []
  else if sub = ascii "set-attrs" then setAttrsLib l w p (r.positional.getD 1 [])
  else if sub = ascii "get-jobs" then requestSays l (nextId w p) (mkMsg p 0x000a [(ascii "requested-attributes", (0x44, .str (ascii "all")))] [] []) w.reply
  else if sub = ascii "cancel-job" then
    match numOf (r.vals 2) with
    | none => []
    | some id => requestSays l (nextId w p) (mkMsg p 0x0008 [(ascii "job-id", (0x21, .int id))] [] []) w.reply
  else if sub = ascii "print" then printLib l w p (Options.of r.vals) (r.positional.getD 1 [])
  else []

/-- `main`, ippclient.cpp 158-531: what the library says -/
def libSays (l : LibTalk) (w : World) (args : List Bytes) : Bytes :=
  match getSubArgs commands args with
  | .inl _ => []
  | .inr (sub, r) =>
    if (r.vals 0).isSome then []
    else if r.success then
      refreshSays l w.files w.env.reqId { addr := r.positional.getD 0 [], user := w.user, attrs := [] } w.attrsReply ++
        match (construct w.files w.env.reqId (r.positional.getD 0 []) w.user w.attrsReply).out with
        | .ok (none, p) => commandLib l w p sub r
        | _ => []
    else []

/-- Everything on the standard error -/
def clientErrors (t : Talk) (l : LibTalk) (w : World) (args : List Bytes) : Bytes := libSays l w args ++ (clientSays t w args).stderr

/-! ## Specification -/

namespace Spec

/-- What is said about data that comes in: nothing but texts about unsupported attributes, and just those for a message of groups -/
def DataTold (dump : Json → Bytes) (data text : Bytes) : Prop :=
  (∃ js : List Json, text = js.flatMap (warning dump)) ∧
    ∀ maj min op reqId gs doc, data = headerBytes maj min op reqId ++ (groupsBytes gs ++ 3 :: doc) → (∀ g ∈ gs, RecvOk g) → (∀ r, doc ≠ 0 :: 0 :: r) → Warnings dump gs text

/-- A reply has come, and what is said about it -/
def ReplyTold (dump : Json → Bytes) (reply : Except Bytes Bytes) (text : Bytes) : Prop := ∃ data, reply = .ok data ∧ DataTold dump data text

/-- What is said about the overrides for a printer with these attributes -/
structure OverridesTold (l : LibTalk) (files : Files) (a : Attrs) (text : Bytes) : Prop where
  none : files.overrides = none → text = []
  bad : ∀ o e, files.overrides = some o → files.parse o = .error e → text = ascii "Bad overrides file: " ++ e ++ ascii "\n"
  rules : ∀ rules, InForce files rules → RulesOk rules → Plain rules a → KMap.Sorted a → text = []
  good : ∀ o j, files.overrides = some o → files.parse o = .ok j → text = [] ∨ text = ascii "Exception applying overrides: " ++ l.what ++ ascii "\n"

/-- A request to create a job is among the events. -/
def Creates (es : List Event) : Prop := ∃ m b, Event.post m b ∈ es ∧ m.opOrStatus = 5

open Classical in
/-- The replies that come while a job is printed -/
noncomputable def jobReplies (env : Env) (es : List Event) : List (Except Bytes Bytes) :=
  if Creates es then [env.createReply, env.printReply] else [env.printReply]

/-- The replies that come after that with the printer's attributes -/
noncomputable def laterReplies (w : World) (sub : Bytes) (es : List Event) : List (Except Bytes Bytes) :=
  if sub = ascii "info" ∨ sub = ascii "get-attrs" then []
  else if sub = ascii "print" then jobReplies w.env es
  else [w.reply]

/-- The attributes of a printer that is a file, and what is said while they are read -/
def FileTold (dump : Json → Bytes) (files : Files) (addr : Bytes) (a : Attrs) (t : Bytes) : Prop :=
  ∃ name text, addr = ascii "file://" ++ name ∧ files.read name = some text ∧
    ((∃ r j, text = ascii "{" ++ r ∧ files.parse text = .ok j ∧ attrsFromJson j = .ok a ∧ t = []) ∨
      (∃ m rest, decodeMsg text = .ok (m, rest) ∧ a = m.printerAttrs ∧ DataTold dump text t))

/-- The attributes of a printer that is not a file, and what is said while they are read -/
def NetworkTold (dump : Json → Bytes) (w : World) (a : Attrs) (t : Bytes) : Prop :=
  ∃ data m rest, w.attrsReply = .ok data ∧ decodeMsg data = .ok (m, rest) ∧ a = m.printerAttrs ∧ DataTold dump data t

/-- The debug files that have been written -/
def written (es : List Event) : List Bytes := es.filterMap fun
  | .wrote name => some name
  | _ => none

/-- What is on the standard error after a run that was not to help, and ended with 0 -/
def Whispers (l : LibTalk) (w : World) (sub addr : Bytes) (es : List Event) (text : Bytes) : Prop :=
  ∃ a t o rest, OverridesTold l w.files a o ∧ text = t ++ o ++ rest ∧
    ((ascii "file://" <+: addr ∧ FileTold l.dump w.files addr a t) ∨ (¬ ascii "file://" <+: addr ∧ NetworkTold l.dump w a t)) ∧
    ((ascii "file://" <+: addr ∧ sub = ascii "print" ∧ rest = (written es).flatMap fun n => ascii "Wrote " ++ l.temp ++ n ++ ascii "\n") ∨
      (¬ (ascii "file://" <+: addr ∧ sub = ascii "print") ∧ ∃ ts, All2 (ReplyTold l.dump) (laterReplies w sub es) ts ∧ rest = ts.flatten))

end Spec

open Verif.Client.Spec

/-! ## Proofs: parts -/

theorem data_told (dump : Json → Bytes) (data : Bytes) : DataTold dump data (decodeSays dump data) :=
  ⟨(C117_any dump data).1, fun maj min op reqId gs doc he hg hd => by rw [he]; exact C117_groups dump gs hg maj min op reqId doc hd⟩

theorem overrides_told (l : LibTalk) (files : Files) (a : Attrs) : OverridesTold l files a (overridesSay l files a) := by
  unfold overridesSay
  refine ⟨fun h => by rw [h], fun o e h1 h2 => by simp only [h1, h2]; rfl, fun rules hf hr hp hs => ?_, fun o j h1 h2 => ?_⟩
  · rcases hf with ⟨h1, -⟩ | ⟨text, h1, h2⟩
    · rw [h1]
    · obtain ⟨res, h3, -⟩ := overrideAll_get hr hs hp fun _ _ _ => rfl
      simp only [h1, h2, h3]
  · simp only [h1, h2]
    cases (overrideAll j.objectItems a).2 with
    | throws e => exact .inr rfl
    | _ => exact .inl rfl

theorem received_ok {reply : Except Bytes Bytes} {m : Msg} (h : received reply = .ok (.ok m)) : ∃ data rest, reply = .ok data ∧ decodeMsg data = .ok (m, rest) := by
  obtain ⟨⟨data, rest, h1, h2⟩, -⟩ := received_message h
  exact ⟨data, rest, h1, h2⟩

theorem request_told (l : LibTalk) {n : Nat} {m : Msg} {reply : Except Bytes Bytes} {resp : Msg} (h : (doRequest n m reply).out = .ok (.ok resp)) :
    requestSays l n (.ok m) reply = replySays l reply ∧ ReplyTold l.dump reply (replySays l reply) ∧ received reply = .ok (.ok resp) := by
  have hr := doRequest_received h
  unfold doRequest at h
  obtain ⟨b, h1, h⟩ := bind_out h
  have h1 : encodeMsg n m = .ok b := h1
  obtain ⟨data, rest, h2, h3⟩ := received_ok hr
  refine ⟨by unfold requestSays; simp only [h1], ⟨data, h2, ?_⟩, hr⟩
  rw [h2]
  exact data_told l.dump data

/-- Posts no request to create a job -/
def NoCreate {α : Type} (x : Act α) : Prop := ¬ Creates x.events

theorem creates_append {a b : List Event} : Creates (a ++ b) ↔ Creates a ∨ Creates b := by
  constructor
  · rintro ⟨m, c, h, ho⟩
    rcases List.mem_append.mp h with h | h
    · exact .inl ⟨m, c, h, ho⟩
    · exact .inr ⟨m, c, h, ho⟩
  · rintro (⟨m, c, h, ho⟩ | ⟨m, c, h, ho⟩)
    · exact ⟨m, c, List.mem_append_left _ h, ho⟩
    · exact ⟨m, c, List.mem_append_right _ h, ho⟩

theorem noCreate_bind {α β : Type} {x : Act α} {f : α → Act β} (hx : NoCreate x) (hf : ∀ a, x.out = .ok a → NoCreate (f a)) : NoCreate (x >>= f) := by
  show ¬ Creates (Act.bind x f).events
  unfold Act.bind
  split
  · rename_i a h
    rw [creates_append]
    exact fun h' => h'.elim hx (hf a h)
  · exact hx
  · exact hx
  · exact hx

theorem creates_nil : ¬ Creates [] := by rintro ⟨m, b, h, _⟩; cases h

theorem noCreate_lift {α : Type} (x : Outcome α) : NoCreate (Act.lift x) := by cases x <;> exact creates_nil

theorem noCreate_events {es : List Event} (h : ∀ e ∈ es, ∀ m b, e ≠ .post m b) : ¬ Creates es := by
  rintro ⟨m, b, hm, _⟩
  exact h _ hm m b rfl

theorem noCreate_request {n : Nat} {m : Msg} {reply : Except Bytes Bytes} (h : m.opOrStatus ≠ 5) : NoCreate (doRequest n m reply) := by
  refine noCreate_bind (noCreate_lift _) fun b _ => noCreate_bind ?_ fun _ _ => noCreate_lift _
  rintro ⟨m', b', hm, ho⟩
  simp only [Act.emit, List.mem_singleton, Event.post.injEq] at hm
  rw [hm.1] at ho
  exact h ho

theorem mkMsg_op {p : Printer} {op : UInt16} {a b c : Attrs} {m : Msg} (h : mkMsg p op a b c = .ok m) : m.opOrStatus = op := by
  unfold mkMsg at h
  obtain ⟨v, _, h⟩ := Outcome.bind_eq_ok.mp h
  cases h
  rfl

theorem bind_events {α β : Type} {x : Act α} {f : α → Act β} {a : α} (h : x.out = .ok a) : (x >>= f).events = x.events ++ (f a).events := by
  show (Act.bind x f).events = _
  unfold Act.bind
  rw [h]

theorem construct_noCreate (w : World) (addr : Bytes) : NoCreate (construct w.files w.env.reqId addr w.user w.attrsReply) := by
  unfold construct refresh
  split
  · exact noCreate_lift _
  · refine noCreate_bind (noCreate_lift _) fun m hm => noCreate_bind (noCreate_request ?_) fun _ _ => noCreate_bind (noCreate_lift _) fun _ _ => creates_nil
    have hm : mkMsg _ _ _ _ _ = .ok m := hm
    rw [mkMsg_op hm]
    decide

theorem jobReplies_same (env : Env) {a b : List Event} (h : Creates a ↔ Creates b) : jobReplies env a = jobReplies env b := by
  unfold jobReplies
  by_cases hb : Creates b
  · rw [if_pos hb, if_pos (h.mpr hb)]
  · rw [if_neg hb, if_neg fun ha => hb (h.mp ha)]

/-! ## Proofs: the attributes of the printer -/

theorem refresh_told (l : LibTalk) {w : World} {addr : Bytes} {p : Printer} (hn : ¬ ascii "file://" <+: addr) (h : Connected w addr p) :
    ∃ t a, NetworkTold l.dump w a t ∧
      refreshSays l w.files w.env.reqId { addr := addr, user := w.user, attrs := [] } w.attrsReply = t ++ overridesSay l w.files a := by
  have hf : Text.startsWith addr (ascii "file://") ≠ true := fun h => hn ((startsWith_file { addr := addr, attrs := [] }).mp h)
  unfold Connected construct refresh at h
  rw [if_neg hf] at h
  obtain ⟨m, hm, h⟩ := bind_out h
  have hm : mkMsg _ _ _ _ _ = .ok m := hm
  obtain ⟨r, hr, h⟩ := bind_out h
  obtain ⟨a, ha, h⟩ := bind_out h
  injection h with h
  simp only [Prod.mk.injEq] at h
  obtain ⟨m', rfl⟩ := errorOf_none h.1
  obtain ⟨h1, ⟨data, hd, ht⟩, h2⟩ := request_told l hr
  obtain ⟨data', rest, hd', hdec⟩ := received_ok h2
  rw [hd] at hd'
  cases hd'
  refine ⟨replySays l w.attrsReply, m'.printerAttrs, ⟨data, m', rest, hd, hdec, rfl, ht⟩, ?_⟩
  unfold refreshSays
  rw [if_neg hf, hm, h1, h2]
  rfl

/-! ## Proofs: printing -/

theorem stream_told (l : LibTalk) {env : Env} {n : Nat} {job : PrintJob} {f : ConvertFun} {m : Msg} (h : (doPrint env n job f m).out = .ok none) :
    streamSays l env n job f (.ok m) = replySays l env.printReply ∧ ReplyTold l.dump env.printReply (replySays l env.printReply) := by
  unfold doPrint at h
  obtain ⟨b, h1, h⟩ := bind_out h
  have h1 : encodeMsg n m = .ok b := h1
  obtain ⟨_, _, h⟩ := bind_out h
  obtain ⟨u, h2, h⟩ := bind_out h
  unfold convertAndAwait at h
  generalize hc : env.convert f job = c at h
  obtain ⟨blocks, r⟩ := c
  cases r with
  | ok x =>
    cases x with
    | none =>
      simp only at h
      unfold printResult at h
      cases hp : env.printReply with
      | error e => rw [hp] at h; cases h
      | ok data =>
        refine ⟨?_, data, rfl, data_told l.dump data⟩
        unfold streamSays
        simp only [h1, h2, hc, hp]
    | some e => cases h
  | _ => cases h

theorem stream_noCreate {env : Env} {n : Nat} {job : PrintJob} {f : ConvertFun} {m : Msg} : NoCreate (doPrint env n job f m) := by
  unfold doPrint
  refine noCreate_bind (noCreate_lift _) fun b _ => noCreate_bind ?_ fun _ _ => noCreate_bind ?_ fun _ _ => ?_
  · exact noCreate_events (by simp [Act.emit])
  · unfold useCompression
    split
    · exact noCreate_events (fun e he m b => by
        simp only [Act.emit, compressionEvents] at he
        split at he
        · cases List.mem_singleton.mp he; simp
        · split at he
          · cases List.mem_singleton.mp he; simp
          · cases he)
    · exact noCreate_events (by simp)
    · exact creates_nil
    · exact creates_nil
  · have hb : ∀ bs : List Bytes, ¬ Creates (blockEvents bs) := fun bs => noCreate_events (fun e he m b => by
      obtain ⟨x, _, rfl⟩ := List.mem_map.mp he
      simp)
    have hf : ¬ Creates [Event.finish] := noCreate_events (by simp)
    have hp : NoCreate (printResult env.showJobId env.printReply) := by
      unfold printResult
      split
      · exact creates_nil
      · refine noCreate_bind (noCreate_lift _) fun x _ => ?_
        obtain ⟨m, r⟩ := x
        simp only
        split
        · unfold showJob
          split
          · exact creates_nil
          · split
            · exact noCreate_bind (noCreate_lift _) fun _ _ => noCreate_bind (noCreate_events (by simp [Act.emit])) fun _ _ => creates_nil
            · exact creates_nil
        · exact noCreate_bind (noCreate_lift _) fun _ _ => creates_nil
    unfold convertAndAwait
    generalize env.convert f job = c
    obtain ⟨blocks, r⟩ := c
    unfold NoCreate
    cases r with
    | ok x =>
      cases x with
      | none =>
        simp only
        rw [creates_append, creates_append]
        rintro ((h | h) | h)
        · exact hb _ h
        · exact hf h
        · exact hp h
      | some e => simp only; rw [creates_append]; rintro (h | h); exacts [hb _ h, hf h]
    | throws e => simp only; rw [creates_append]; rintro (h | h); exacts [hb _ h, hf h]
    | ub => exact hb _
    | hang => exact hb _

theorem deliver_told (l : LibTalk) {env : Env} {p : Printer} {job : PrintJob} {f : ConvertFun} {name : Bytes} {ops : List Int} (hp : ¬ IsFile p)
    (h : (deliver env p job f name ops).out = .ok none) :
    ∃ ts, All2 (ReplyTold l.dump) (jobReplies env (deliver env p job f name ops).events) ts ∧
      deliverSays l env p job f name ops = ts.flatten := by
  have hf : ¬ Text.startsWith p.addr (ascii "file://") = true := fun h => hp ((startsWith_file p).mp h)
  unfold deliver at h ⊢
  unfold deliverSays
  rw [if_neg hf] at h ⊢
  rw [if_neg hf]
  unfold transmit at h ⊢
  by_cases ht : job.oneStage = false ∧ ops.contains 0x0005 = true ∧ ops.contains 0x0006 = true
  · rw [if_pos ht] at h ⊢
    rw [if_pos ht]
    have hc : Creates (createAndSend env p job f name).events := by
      unfold createAndSend at h ⊢
      obtain ⟨m, hm, h⟩ := bind_out h
      have hm' : mkMsg _ _ _ _ _ = .ok m := hm
      obtain ⟨r, hr, h⟩ := bind_out h
      rw [bind_events hm, bind_events hr]
      refine creates_append.mpr (.inr (creates_append.mpr (.inl ?_)))
      unfold doRequest at hr ⊢
      obtain ⟨b, hb, hr⟩ := bind_out hr
      obtain ⟨u, hu, hr⟩ := bind_out hr
      rw [bind_events hb, bind_events hu]
      exact creates_append.mpr (.inr (creates_append.mpr (.inl ⟨m, b, List.mem_singleton.mpr rfl, mkMsg_op hm'⟩)))
    rw [jobReplies, if_pos hc]
    unfold createAndSend at h
    obtain ⟨m, hm, h⟩ := bind_out h
    have hm : mkMsg _ _ _ _ _ = .ok m := hm
    obtain ⟨r, hr, h⟩ := bind_out h
    cases r with
    | error e => cases h
    | ok resp =>
      obtain ⟨h1, h2, h3⟩ := request_told l hr
      simp only [createResult, afterCreate] at h
      split at h
      · rename_i hs
        obtain ⟨id, hid, h⟩ := bind_out h
        have hid : getInteger _ _ = .ok id := hid
        unfold sendDocument at h
        obtain ⟨m2, hm2, h⟩ := bind_out h
        have hm2 : mkMsg _ _ _ _ _ = .ok m2 := hm2
        obtain ⟨h4, h5⟩ := stream_told l h
        refine ⟨_, .cons h2 (.cons h5 .nil), ?_⟩
        unfold createSays afterCreateSays
        rw [hm, h1, h3]
        simp only [hs, hid, and_self, if_true, hm2, h4, List.flatten_cons, List.flatten_nil, List.append_nil]
      · obtain ⟨s, _, h⟩ := bind_out h
        cases h
  · rw [if_neg ht] at h ⊢
    rw [if_neg ht]
    have hc : ¬ Creates (printJob env p job f name).events := by
      unfold printJob
      exact noCreate_bind (noCreate_lift _) fun _ _ => stream_noCreate
    rw [jobReplies, if_neg hc]
    unfold printJob at h
    obtain ⟨m, hm, h⟩ := bind_out h
    have hm : mkMsg _ _ _ _ _ = .ok m := hm
    obtain ⟨h4, h5⟩ := stream_told l h
    refine ⟨_, .cons h5 .nil, ?_⟩
    rw [hm, h4]
    simp

theorem run_told (l : LibTalk) {env : Env} {p : Printer} {job : PrintJob} {input name : Bytes} {pages : Int} (hp : ¬ IsFile p)
    (h : (runJob env p job input name pages).out = .ok none) :
    ∃ ts, All2 (ReplyTold l.dump) (jobReplies env (runJob env p job input name pages).events) ts ∧
      runSays l env p job.copy input name pages = ts.flatten := by
  have hev : (runJob env p job input name pages).events = (tryRun env p job.copy input name pages).events := by
    unfold runJob runJobWith catchAll
    split <;> rfl
  have h : (tryRun env p job.copy input name pages).out = .ok none := by
    unfold runJob runJobWith catchAll at h
    split at h
    · cases h
    · exact h
  rw [hev]
  unfold tryRun at h ⊢
  obtain ⟨ops, hops, h⟩ := bind_out h
  obtain ⟨⟨fe, j⟩, hj, h⟩ := bind_out h
  rw [bind_events hops, bind_events hj]
  have hops : intList _ _ = .ok ops := hops
  have hj : finalize _ _ _ _ = .ok (fe, j) := hj
  cases fe with
  | some e => cases h
  | none =>
    simp only [afterFinalize] at h ⊢
    cases hf : getConvertFun env.pipelines input j.targetFormat with
    | none => rw [hf] at h; cases h
    | some f =>
      rw [hf] at h
      obtain ⟨ts, h1, h2⟩ := deliver_told l hp h
      refine ⟨ts, ?_, ?_⟩
      · have e : (Act.lift (intList p.attrs (ascii "operations-supported"))).events = [] := by rw [hops]; rfl
        have e2 : (Act.lift (finalize env.pipelines input pages job.copy)).events = [] := by rw [hj]; rfl
        rw [e, e2]
        exact h1
      · unfold runSays
        simp only [hops, hj, hf]
        exact h2

theorem print_told (l : LibTalk) {w : World} {p : Printer} {o : Options} {inFile : Bytes} {e : End} (hp : ¬ IsFile p)
    (h : (printCommand w p o inFile).out = .ok e) (h0 : e.code = 0) :
    ∃ ts, All2 (ReplyTold l.dump) (jobReplies w.env (printCommand w p o inFile).events) ts ∧
      printLib l w p o inFile = ts.flatten := by
  unfold printCommand at h ⊢
  obtain ⟨r, hr, h⟩ := bind_out h
  rw [bind_events hr]
  have hr : prepare w p o inFile = .ok r := hr
  have e1 : (Act.lift (prepare w p o inFile)).events = [] := by rw [hr]; rfl
  rw [e1]
  cases r with
  | none => cases h; cases h0
  | some x =>
    obtain ⟨j, t⟩ := x
    simp only [launch] at h ⊢
    cases hn : countPages w t inFile with
    | none => rw [hn] at h; cases h; cases h0
    | some n =>
      rw [hn] at h
      simp only [submit] at h ⊢
      obtain ⟨⟨b, store⟩, hs, h⟩ := bind_out h
      rw [bind_events hs]
      have hs : saved w o j = .ok (b, store) := hs
      have e2 : (Act.lift (saved w o j)).events = [] := by rw [hs]; rfl
      rw [e2]
      cases b with
      | false => cases h; cases h0
      | true =>
        simp only [if_true] at h ⊢
        obtain ⟨x, hrun, h⟩ := bind_out h
        rw [bind_events hrun]
        injection h with h
        cases x with
        | some x => rw [← h] at h0; cases h0
        | none =>
          obtain ⟨ts, h1, h2⟩ := run_told l hp hrun
          refine ⟨ts, ?_, ?_⟩
          · rw [List.nil_append, List.nil_append, jobReplies_same (b := (runJob { w.env with reqId := nextId w p, showJobId := o.printJobId } p j t (fileName inFile) n).events)]
            · exact h1
            · rw [creates_append]
              exact or_iff_left creates_nil
          · unfold printLib
            simp only [hr, hn, hs]
            exact h2

/-! ## Proofs: printing to a file -/

theorem wrote_texts (l : LibTalk) (es : List Event) : es.flatMap (wroteText l) = (written es).flatMap fun n => ascii "Wrote " ++ l.temp ++ n ++ ascii "\n" := by
  have e : ascii "\n" = [10] := by decide +kernel
  unfold written
  induction es with
  | nil => rfl
  | cons x r ih => cases x <;> simp [wroteText, ih, e]

theorem run_wrote (l : LibTalk) {env : Env} {p : Printer} {job : PrintJob} {input name : Bytes} {pages : Int} (hp : IsFile p)
    (h : (runJob env p job input name pages).out = .ok none) :
    runSays l env p job.copy input name pages = (runJob env p job input name pages).events.flatMap (wroteText l) := by
  have hev : (runJob env p job input name pages).events = (tryRun env p job.copy input name pages).events := by
    unfold runJob runJobWith catchAll
    split <;> rfl
  have h : (tryRun env p job.copy input name pages).out = .ok none := by
    unfold runJob runJobWith catchAll at h
    split at h
    · cases h
    · exact h
  rw [hev]
  unfold tryRun at h ⊢
  obtain ⟨ops, hops, h⟩ := bind_out h
  obtain ⟨⟨fe, j⟩, hj, h⟩ := bind_out h
  rw [bind_events hops, bind_events hj]
  have hops : intList _ _ = .ok ops := hops
  have hj : finalize _ _ _ _ = .ok (fe, j) := hj
  have e : (Act.lift (intList p.attrs (ascii "operations-supported"))).events = [] := by rw [hops]; rfl
  have e2 : (Act.lift (finalize env.pipelines input pages job.copy)).events = [] := by rw [hj]; rfl
  rw [e, e2]
  unfold runSays
  cases fe with
  | some x => cases h
  | none =>
    simp only [afterFinalize] at h ⊢
    simp only [hops, hj]
    cases hf : getConvertFun env.pipelines input j.targetFormat with
    | none => rw [hf] at h; cases h
    | some f =>
      simp only [deliver, deliverSays]
      rw [if_pos ((startsWith_file p).mpr hp), if_pos ((startsWith_file p).mpr hp)]
      rfl

theorem print_wrote (l : LibTalk) {w : World} {p : Printer} {o : Options} {inFile : Bytes} {e : End} (hp : IsFile p)
    (h : (printCommand w p o inFile).out = .ok e) (h0 : e.code = 0) :
    printLib l w p o inFile = (printCommand w p o inFile).events.flatMap (wroteText l) := by
  unfold printCommand at h ⊢
  obtain ⟨r, hr, h⟩ := bind_out h
  rw [bind_events hr]
  have hr : prepare w p o inFile = .ok r := hr
  have e1 : (Act.lift (prepare w p o inFile)).events = [] := by rw [hr]; rfl
  rw [e1]
  cases r with
  | none => cases h; cases h0
  | some x =>
    obtain ⟨j, t⟩ := x
    simp only [launch] at h ⊢
    cases hn : countPages w t inFile with
    | none => rw [hn] at h; cases h; cases h0
    | some n =>
      rw [hn] at h
      simp only [submit] at h ⊢
      obtain ⟨⟨b, store⟩, hs, h⟩ := bind_out h
      rw [bind_events hs]
      have hs : saved w o j = .ok (b, store) := hs
      have e2 : (Act.lift (saved w o j)).events = [] := by rw [hs]; rfl
      rw [e2]
      cases b with
      | false => cases h; cases h0
      | true =>
        simp only [if_true] at h ⊢
        obtain ⟨x, hrun, h⟩ := bind_out h
        rw [bind_events hrun]
        injection h with h
        cases x with
        | some x => rw [← h] at h0; cases h0
        | none =>
          unfold printLib
          simp only [hr, hn, hs]
          rw [run_wrote l hp hrun, List.nil_append, List.nil_append, List.flatMap_append]
          exact (List.append_nil _).symm

theorem file_told (l : LibTalk) {w : World} {addr : Bytes} {p : Printer} (hf : ascii "file://" <+: addr) (h : Connected w addr p) :
    ∃ a t, FileTold l.dump w.files addr a t ∧
      refreshSays l w.files w.env.reqId { addr := addr, user := w.user, attrs := [] } w.attrsReply = t ++ overridesSay l w.files a := by
  have hs : Text.startsWith addr (ascii "file://") = true := (startsWith_file { addr := addr, attrs := [] }).mpr hf
  obtain ⟨name, rfl⟩ := hf
  have hd : (ascii "file://" ++ name).drop 7 = name := by
    rw [List.drop_append_of_le_length (by decide +kernel), List.drop_eq_nil_of_le (by decide +kernel)]
    rfl
  unfold Connected construct refresh at h
  rw [if_pos hs] at h
  have h : refreshFromFile w.files { addr := ascii "file://" ++ name, user := w.user, attrs := [] } = .ok (none, p) := h
  unfold refreshFromFile at h
  simp only [hd] at h
  unfold refreshSays
  rw [if_pos hs]
  simp only [hd]
  cases ht : w.files.read name with
  | none => rw [ht] at h; cases h
  | some text =>
    rw [ht] at h
    simp only at h ⊢
    obtain ⟨⟨returns, e, a⟩, h1, h⟩ := Outcome.bind_eq_ok.mp h
    have he : returns = false ∧ e = none := by
      cases returns with
      | true =>
        simp only [if_true] at h
        cases h
        unfold fakeAttrs at h1
        split at h1
        · cases h1
        · split at h1
          · split at h1
            · cases h1
            · split at h1 <;> cases h1
          · split at h1 <;> cases h1
      | false =>
        simp only [Bool.false_eq_true, if_false] at h
        obtain ⟨a', h2, h⟩ := Outcome.bind_eq_ok.mp h
        cases h
        exact ⟨rfl, rfl⟩
    obtain ⟨rfl, rfl⟩ := he
    rw [h1]
    simp only
    refine ⟨a, fakeSays l text, ⟨name, text, rfl, ht, ?_⟩, rfl⟩
    cases text with
    | nil => cases h1
    | cons b r =>
      unfold fakeAttrs at h1
      unfold fakeSays
      by_cases hb : b = 123
      · subst hb
        simp only [if_true] at h1
        cases hj : w.files.parse (123 :: r) with
        | error x => rw [hj] at h1; cases h1
        | ok j =>
          rw [hj] at h1
          simp only at h1
          cases ha : attrsFromJson j with
          | ok a' =>
            rw [ha] at h1
            cases h1
            exact .inl ⟨r, j, rfl, rfl, ha, by rw [List.head?_cons, if_pos rfl]⟩
          | _ => rw [ha] at h1; cases h1
      · simp only [hb, if_false] at h1
        right
        cases hm : decodeMsg (b :: r) with
        | ok x =>
          obtain ⟨m, rest⟩ := x
          rw [hm] at h1
          cases h1
          refine ⟨m, rest, rfl, rfl, ?_⟩
          rw [List.head?_cons, if_neg (by simpa using hb)]
          exact data_told l.dump _
        | _ => rw [hm] at h1; cases h1

/-! ## Proofs: the sub-commands -/

theorem command_told (l : LibTalk) {w : World} {sub : Bytes} {opts : List Opt} {poss : List Pos} {p : Printer} {r : Result} {e : End} {es : List Event}
    (hc : (sub, opts, poss) ∈ commands) (h : (command w p sub r).out = .ok e) (h0 : e.code = 0) (hes : Creates es ↔ Creates (command w p sub r).events) :
    (IsFile p ∧ sub = ascii "print" ∧ commandLib l w p sub r = (command w p sub r).events.flatMap (wroteText l)) ∨
      (¬ (IsFile p ∧ sub = ascii "print") ∧ ∃ ts, All2 (ReplyTold l.dump) (laterReplies w sub es) ts ∧ commandLib l w p sub r = ts.flatten) := by
  simp only [commands, List.mem_cons, List.not_mem_nil, or_false, Prod.mk.injEq] at hc
  have one : ∀ {x : Bytes}, ReplyTold l.dump w.reply x → ∃ ts, All2 (ReplyTold l.dump) [w.reply] ts ∧ x = ts.flatten := fun h => ⟨[_], .cons h .nil, by simp⟩
  rcases hc with ⟨rfl, rfl, rfl⟩ | ⟨rfl, rfl, rfl⟩ | ⟨rfl, rfl, rfl⟩ | ⟨rfl, rfl, rfl⟩ | ⟨rfl, rfl, rfl⟩ | ⟨rfl, rfl, rfl⟩ | ⟨rfl, rfl, rfl⟩
  · refine .inr ⟨fun h => absurd h.2 (by decide +kernel), [], ?_, ?_⟩
    · unfold laterReplies; rw [if_pos (.inl rfl)]; exact .nil
    · unfold commandLib; rw [if_pos rfl]; rfl
  · refine .inr ⟨fun h => absurd h.2 (by decide +kernel), ?_⟩
    have e1 : command w p (ascii "identify") r = identifyCommand w p := by unfold command; rw [if_neg (by decide +kernel), if_pos rfl]
    have e2 : commandLib l w p (ascii "identify") r = identifyLib l w p := by unfold commandLib; rw [if_neg (by decide +kernel), if_pos rfl]
    have e3 : laterReplies w (ascii "identify") es = [w.reply] := by unfold laterReplies; rw [if_neg (by decide +kernel), if_neg (by decide +kernel)]
    rw [e1] at h
    rw [e2, e3]
    unfold identifyCommand at h
    obtain ⟨x, hx, h⟩ := bind_out h
    injection h with h
    cases x with
    | some x => rw [← h] at h0; cases h0
    | none =>
      unfold identify at hx
      unfold identifyLib
      split at hx
      · rename_i hk
        rw [if_pos hk]
        obtain ⟨m, hm, hx⟩ := bind_out hx
        have hm : mkMsg _ _ _ _ _ = .ok m := hm
        obtain ⟨y, hy, hx⟩ := bind_out hx
        injection hx with hx
        obtain ⟨m', rfl⟩ := errorOf_none hx
        obtain ⟨h1, h2, -⟩ := request_told l hy
        rw [hm, h1]
        exact one h2
      · cases hx
  · refine .inr ⟨fun h => absurd h.2 (by decide +kernel), [], ?_, ?_⟩
    · unfold laterReplies; rw [if_pos (.inr rfl)]; exact .nil
    · unfold commandLib; rw [if_neg (by decide +kernel), if_neg (by decide +kernel), if_pos rfl]; rfl
  · refine .inr ⟨fun h => absurd h.2 (by decide +kernel), ?_⟩
    have e1 : command w p (ascii "set-attrs") r = setAttrsCommand w p (r.positional.getD 1 []) := by
      unfold command; rw [if_neg (by decide +kernel), if_neg (by decide +kernel), if_neg (by decide +kernel), if_pos rfl]
    have e2 : commandLib l w p (ascii "set-attrs") r = setAttrsLib l w p (r.positional.getD 1 []) := by
      unfold commandLib; rw [if_neg (by decide +kernel), if_neg (by decide +kernel), if_neg (by decide +kernel), if_pos rfl]
    have e3 : laterReplies w (ascii "set-attrs") es = [w.reply] := by unfold laterReplies; rw [if_neg (by decide +kernel), if_neg (by decide +kernel)]
    rw [e1] at h
    rw [e2, e3]
    unfold setAttrsCommand at h
    unfold setAttrsLib
    cases hk : keyValues (Text.splitString [44] (r.positional.getD 1 [])) with
    | none => rw [hk] at h; cases h; cases h0
    | some kvs =>
      rw [hk] at h
      simp only at h ⊢
      obtain ⟨x, hx, h⟩ := bind_out h
      injection h with h
      cases x with
      | some x => rw [← h] at h0; cases h0
      | none =>
        unfold setAttributes at hx
        cases hs : toSet p.attrs kvs [] with
        | ok a =>
          rw [hs] at hx
          simp only [sendAttributes] at hx
          obtain ⟨m, hm, hx⟩ := bind_out hx
          have hm : mkMsg _ _ _ _ _ = .ok m := hm
          obtain ⟨y, hy, hx⟩ := bind_out hx
          injection hx with hx
          obtain ⟨m', rfl⟩ := errorOf_none hx
          obtain ⟨h1, h2, -⟩ := request_told l hy
          simp only [hm, h1]
          exact one h2
        | _ => rw [hs] at hx; cases hx
  · refine .inr ⟨fun h => absurd h.2 (by decide +kernel), ?_⟩
    have e1 : command w p (ascii "get-jobs") r = getJobsCommand w p := by
      unfold command; rw [if_neg (by decide +kernel), if_neg (by decide +kernel), if_neg (by decide +kernel), if_neg (by decide +kernel), if_pos rfl]
    have e2 : commandLib l w p (ascii "get-jobs") r =
        requestSays l (nextId w p) (mkMsg p 0x000a [(ascii "requested-attributes", (0x44, .str (ascii "all")))] [] []) w.reply := by
      unfold commandLib; rw [if_neg (by decide +kernel), if_neg (by decide +kernel), if_neg (by decide +kernel), if_neg (by decide +kernel), if_pos rfl]
    have e3 : laterReplies w (ascii "get-jobs") es = [w.reply] := by unfold laterReplies; rw [if_neg (by decide +kernel), if_neg (by decide +kernel)]
    rw [e1] at h
    rw [e2, e3]
    unfold getJobsCommand at h
    obtain ⟨⟨x, jl⟩, hx, h⟩ := bind_out h
    cases x with
    | some x => injection h with h; rw [← h] at h0; cases h0
    | none =>
      unfold getJobs at hx
      obtain ⟨m, hm, hx⟩ := bind_out hx
      have hm : mkMsg _ _ _ _ _ = .ok m := hm
      obtain ⟨y, hy, hx⟩ := bind_out hx
      cases y with
      | error x => cases hx
      | ok m' =>
        obtain ⟨h1, h2, -⟩ := request_told l hy
        rw [hm, h1]
        exact one h2
  · refine .inr ⟨fun h => absurd h.2 (by decide +kernel), ?_⟩
    have e1 : command w p (ascii "cancel-job") r = cancelCommand w p (numOf (r.vals 2)) := by
      unfold command
      rw [if_neg (by decide +kernel), if_neg (by decide +kernel), if_neg (by decide +kernel), if_neg (by decide +kernel), if_neg (by decide +kernel), if_pos rfl]
    have e2 : commandLib l w p (ascii "cancel-job") r = match numOf (r.vals 2) with
        | none => []
        | some id => requestSays l (nextId w p) (mkMsg p 0x0008 [(ascii "job-id", (0x21, .int id))] [] []) w.reply := by
      unfold commandLib
      rw [if_neg (by decide +kernel), if_neg (by decide +kernel), if_neg (by decide +kernel), if_neg (by decide +kernel), if_neg (by decide +kernel), if_pos rfl]
    have e3 : laterReplies w (ascii "cancel-job") es = [w.reply] := by unfold laterReplies; rw [if_neg (by decide +kernel), if_neg (by decide +kernel)]
    rw [e1] at h
    rw [e2, e3]
    cases hid : numOf (r.vals 2) with
    | none => rw [hid] at h; cases h; cases h0
    | some id =>
      rw [hid] at h
      unfold cancelCommand at h
      obtain ⟨x, hx, h⟩ := bind_out h
      injection h with h
      cases x with
      | some x => rw [← h] at h0; cases h0
      | none =>
        unfold cancelJob at hx
        obtain ⟨m, hm, hx⟩ := bind_out hx
        have hm : mkMsg _ _ _ _ _ = .ok m := hm
        obtain ⟨y, hy, hx⟩ := bind_out hx
        cases y with
        | error x => cases hx
        | ok m' =>
          obtain ⟨h1, h2, -⟩ := request_told l hy
          simp only [hm, h1]
          exact one h2
  · have e1 : command w p (ascii "print") r = printCommand w p (Options.of r.vals) (r.positional.getD 1 []) := by
      unfold command
      rw [if_neg (by decide +kernel), if_neg (by decide +kernel), if_neg (by decide +kernel), if_neg (by decide +kernel), if_neg (by decide +kernel),
        if_neg (by decide +kernel), if_pos rfl]
    have e2 : commandLib l w p (ascii "print") r = printLib l w p (Options.of r.vals) (r.positional.getD 1 []) := by
      unfold commandLib
      rw [if_neg (by decide +kernel), if_neg (by decide +kernel), if_neg (by decide +kernel), if_neg (by decide +kernel), if_neg (by decide +kernel),
        if_neg (by decide +kernel), if_pos rfl]
    have e3 : laterReplies w (ascii "print") es = jobReplies w.env es := by unfold laterReplies; rw [if_neg (by decide +kernel), if_pos rfl]
    rw [e1] at h hes ⊢
    rw [e2, e3]
    by_cases hf : IsFile p
    · exact .inl ⟨hf, rfl, print_wrote l hf h h0⟩
    · refine .inr ⟨fun h => hf h.1, ?_⟩
      rw [jobReplies_same w.env hes]
      exact print_told l hf h h0

theorem connected_addr {w : World} {addr : Bytes} {p : Printer} (h : Connected w addr p) : p.addr = addr := by
  unfold Connected construct refresh at h
  split at h
  · have h : refreshFromFile _ _ = .ok (none, p) := h
    unfold refreshFromFile at h
    split at h
    · cases h
    · obtain ⟨⟨returns, e, a⟩, -, h⟩ := Outcome.bind_eq_ok.mp h
      simp only at h
      split at h
      · cases h; rfl
      · obtain ⟨a', -, h⟩ := Outcome.bind_eq_ok.mp h
        cases h
        rfl
  · obtain ⟨m, -, h⟩ := bind_out h
    obtain ⟨r, -, h⟩ := bind_out h
    obtain ⟨a, -, h⟩ := bind_out h
    injection h with h
    simp only [Prod.mk.injEq] at h
    rw [← h.2]

theorem construct_wrote (w : World) (addr : Bytes) : written (construct w.files w.env.reqId addr w.user w.attrsReply).events = [] := by
  have key : ∀ {α : Type} (x : Act α), (∀ e ∈ x.events, ∀ n, e ≠ .wrote n) → written x.events = [] := by
    intro α x h
    unfold written
    rw [List.filterMap_eq_nil_iff]
    intro e he
    cases e with
    | wrote n => exact absurd rfl (h _ he n)
    | _ => rfl
  have hb : ∀ {α β : Type} {x : Act α} {f : α → Act β}, (∀ e ∈ x.events, ∀ n, e ≠ .wrote n) → (∀ a, ∀ e ∈ (f a).events, ∀ n, e ≠ .wrote n) →
      ∀ e ∈ (x >>= f).events, ∀ n, e ≠ .wrote n := by
    intro α β x f hx hf
    show ∀ e ∈ (Act.bind x f).events, _
    unfold Act.bind
    split
    · intro e he
      rcases List.mem_append.mp he with he | he
      · exact hx e he
      · exact hf _ e he
    · exact hx
    · exact hx
    · exact hx
  have hl : ∀ {α : Type} (x : Outcome α), ∀ e ∈ (Act.lift x).events, ∀ n, e ≠ .wrote n := by
    intro α x e he
    cases x <;> cases he
  refine key _ ?_
  unfold construct refresh
  split
  · exact hl _
  · refine hb (hl _) fun m => hb (hb (hl _) fun b => hb ?_ fun _ => hl _) fun r => hb (hl _) fun a e he => (by cases he)
    intro e he n
    cases List.mem_singleton.mp he
    simp

/-! ## Theorems -/

/-- **C117.** After every run of ippclient that ends with 0 there is nothing on the standard error but what the library has said, in this order: a text for every group of
unsupported attributes in the printer's attributes; a line if the overrides cannot be read or applied; and then such texts for every later reply that has come,
or, for a printer that is a file, a line for the debug file that has been written. After a request for help there is nothing. -/
theorem C117_client (t : Talk) (l : LibTalk) (w : World) (args : List Bytes) (e : End) (h : (main w args).out = .ok e) (h0 : e.code = 0) :
    (∃ sub rest, args = sub :: rest ∧ HelpWanted sub rest ∧ clientErrors t l w args = []) ∨
      ∃ sub uses addr pos, Given args sub uses (addr :: pos) ∧ Whispers l w sub addr (main w args).events (clientErrors t l w args) := by
  have hq : (clientSays t w args).stderr = [] := by
    rcases C113_says t w args e h with ⟨_, _, _, _, _, _, h⟩ | ⟨_, ⟨_, _, h⟩ | ⟨h, _⟩⟩
    · exact h
    · exact h
    · rw [h0] at h; cases h
  unfold clientErrors
  rw [hq, List.append_nil]
  rcases subArgs_cases args with ⟨m, hm⟩ | ⟨sub, opts, poss, rest, rfl, hc, hs⟩
  · unfold main at h
    rw [hm] at h
    cases h
    cases h0
  · have hmain : main w (sub :: rest) = if ((getArgs opts poss rest).vals 0).isSome then pure (fine w)
        else if (getArgs opts poss rest).success then withPrinter w sub (getArgs opts poss rest) else pure (failed w) := by unfold main; rw [hs]
    unfold libSays
    rw [hs]
    simp only
    by_cases hw : ((getArgs opts poss rest).vals 0).isSome = true
    · rw [if_pos hw]
      exact .inl ⟨sub, rest, rfl, (helpWanted_iff hc rest).mpr hw, rfl⟩
    · have hh : ¬ AsksHelp opts rest := fun h => hw ((asksHelp_iff (command_opts hc).2 poss rest).mpr h)
      rw [if_neg hw] at hmain ⊢
      by_cases hok : (getArgs opts poss rest).success = true
      · rw [if_pos hok] at hmain ⊢
        obtain ⟨uses, pos, ha, hv, hr⟩ := C45_sound hok
        have hne : ∃ addr more, pos = addr :: more := by
          simp only [commands, List.mem_cons, List.not_mem_nil, or_false, Prod.mk.injEq] at hc
          rcases hc with ⟨_, _, rfl⟩ | ⟨_, _, rfl⟩ | ⟨_, _, rfl⟩ | ⟨_, _, rfl⟩ | ⟨_, _, rfl⟩ | ⟨_, _, rfl⟩ | ⟨_, _, rfl⟩
          · obtain ⟨a, rfl⟩ := one_word ha; exact ⟨_, _, rfl⟩
          · obtain ⟨a, rfl⟩ := one_word ha; exact ⟨_, _, rfl⟩
          · obtain ⟨a, rfl⟩ := one_word ha; exact ⟨_, _, rfl⟩
          · obtain ⟨a, b, rfl⟩ := two_words rfl ha; exact ⟨_, _, rfl⟩
          · obtain ⟨a, rfl⟩ := one_word ha; exact ⟨_, _, rfl⟩
          · obtain ⟨a, rfl⟩ := one_word ha; exact ⟨_, _, rfl⟩
          · obtain ⟨a, b, rfl⟩ := two_words rfl ha; exact ⟨_, _, rfl⟩
        obtain ⟨addr, more, rfl⟩ := hne
        refine .inr ⟨sub, uses, addr, more, ⟨opts, poss, rest, hc, rfl, ha, hh⟩, ?_⟩
        rw [hmain] at h ⊢
        have e1 : (getArgs opts poss rest).positional.getD 0 [] = addr := by rw [hr]; rfl
        rw [e1]
        unfold withPrinter at h ⊢
        rw [e1] at h ⊢
        obtain ⟨⟨x, p⟩, hx, h⟩ := bind_out h
        rw [bind_events hx, hx]
        cases x with
        | some m => cases h; cases h0
        | none =>
          have hcon : Connected w addr p := hx
          have hfile : IsFile p ↔ ascii "file://" <+: addr := by unfold IsFile; rw [connected_addr hcon]
          have hcre : ∀ es, Creates ((construct w.files w.env.reqId addr w.user w.attrsReply).events ++ es) ↔ Creates es := fun es => by
            rw [creates_append]
            exact or_iff_right (construct_noCreate w addr)
          simp only
          have hcmd := command_told l hc h h0 (hcre (command w p sub (getArgs opts poss rest)).events)
          simp only [hfile] at hcmd
          have hwr : written ((construct w.files w.env.reqId addr w.user w.attrsReply).events ++ (command w p sub (getArgs opts poss rest)).events) =
              written (command w p sub (getArgs opts poss rest)).events := by
            have := construct_wrote w addr
            unfold written at this ⊢
            rw [List.filterMap_append, this, List.nil_append]
          have fin : ∀ {a : Attrs} {t' : Bytes}, refreshSays l w.files w.env.reqId { addr := addr, user := w.user, attrs := [] } w.attrsReply = t' ++ overridesSay l w.files a →
              ((ascii "file://" <+: addr ∧ FileTold l.dump w.files addr a t') ∨ (¬ ascii "file://" <+: addr ∧ NetworkTold l.dump w a t')) →
              Whispers l w sub addr ((construct w.files w.env.reqId addr w.user w.attrsReply).events ++ (command w p sub (getArgs opts poss rest)).events)
                (refreshSays l w.files w.env.reqId { addr := addr, user := w.user, attrs := [] } w.attrsReply ++ commandLib l w p sub (getArgs opts poss rest)) := by
            intro a t' he hk
            refine ⟨a, t', _, commandLib l w p sub (getArgs opts poss rest), overrides_told l w.files a, by rw [he], hk, ?_⟩
            rcases hcmd with ⟨h1, h2, h3⟩ | ⟨h1, ts, h2, h3⟩
            · exact .inl ⟨h1, h2, by rw [h3, wrote_texts, hwr]⟩
            · exact .inr ⟨h1, ts, h2, h3⟩
          by_cases hf : ascii "file://" <+: addr
          · obtain ⟨a, t', h1, h2⟩ := file_told l hf hcon
            exact fin h2 (.inl ⟨hf, h1⟩)
          · obtain ⟨t', a, h1, h2⟩ := refresh_told l hf hcon
            exact fin h2 (.inr ⟨hf, h1⟩)
      · rw [if_neg hok] at hmain
        rw [hmain] at h
        cases h
        cases h0

/-- A message of groups, none of them with unsupported attributes -/
def Spec.AllTaken (reply : Except Bytes Bytes) : Prop := ∀ data, reply = .ok data → ∃ maj min op reqId gs doc,
  data = headerBytes maj min op reqId ++ (groupsBytes gs ++ 3 :: doc) ∧ (∀ g ∈ gs, RecvOk g) ∧ (∀ r, doc ≠ 0 :: 0 :: r) ∧ ofTag 5 gs = []

theorem supported_quiet {dump : Json → Bytes} {reply : Except Bytes Bytes} (hs : AllTaken reply) {data text : Bytes} (hr : reply = .ok data) (h : DataTold dump data text) : text = [] := by
  obtain ⟨maj, min, op, reqId, gs, doc, he, hg, hd, h5⟩ := hs data hr
  obtain ⟨js, h1, h2⟩ := h.2 maj min op reqId gs doc he hg hd
  rw [h5] at h1
  cases h1
  exact h2

/-- **C117.** If there are no overrides, the printer is no file, and no reply reports unsupported attributes, then there is nothing on the standard error after a run
that ends with 0. -/
theorem C117_quiet (t : Talk) (l : LibTalk) (w : World) (args : List Bytes) (e : End) (h : (main w args).out = .ok e) (h0 : e.code = 0)
    (hn : ∀ sub uses addr pos, Given args sub uses (addr :: pos) → ¬ ascii "file://" <+: addr) (ho : w.files.overrides = none)
    (h1 : AllTaken w.attrsReply) (h2 : AllTaken w.reply) (h3 : AllTaken w.env.createReply) (h4 : AllTaken w.env.printReply) : clientErrors t l w args = [] := by
  rcases C117_client t l w args e h h0 with ⟨_, _, _, _, h⟩ | ⟨sub, uses, addr, pos, hg, a, t', o, rest, g1, g2, g3, g4⟩
  · exact h
  · have hf := hn sub uses addr pos hg
    rw [g2, g1.none ho]
    have ht : t' = [] := by
      rcases g3 with ⟨h, _⟩ | ⟨_, data, m, r, hr, _, _, hd⟩
      · exact absurd h hf
      · exact supported_quiet h1 hr hd
    have hrest : rest = [] := by
      rcases g4 with ⟨h, _⟩ | ⟨_, ts, ha, hr⟩
      · exact absurd h hf
      · have all : ∀ reply ∈ laterReplies w sub (main w args).events, AllTaken reply := by
          unfold laterReplies
          split
          · intro r hr; cases hr
          · split
            · unfold jobReplies
              split
              · intro r hr
                simp only [List.mem_cons, List.not_mem_nil, or_false] at hr
                rcases hr with rfl | rfl
                · exact h3
                · exact h4
              · intro r hr
                cases List.mem_singleton.mp hr
                exact h4
            · intro r hr
              cases List.mem_singleton.mp hr
              exact h2
        rw [hr]
        clear hr
        generalize laterReplies w sub (main w args).events = rs at ha all
        induction ha with
        | nil => rfl
        | cons hx _ ih =>
          obtain ⟨data, hr, hd⟩ := hx
          rw [List.flatten_cons, supported_quiet (all _ List.mem_cons_self) hr hd]
          exact ih fun r hr => all r (List.mem_cons_of_mem _ hr)
    rw [ht, hrest]
    rfl

/-- C117, as one would like it: after a run that ends with 0 there is nothing on the standard error. -/
def C117_full : Prop := ∀ (t : Talk) (l : LibTalk) (w : World) (args : List Bytes) (e : End), (main w args).out = .ok e → e.code = 0 → clientErrors t l w args = []

/-- A printer that reports unsupported attributes when it is asked for its own -/
def warningWorld : World := { world with attrsReply := .ok (headerBytes 2 0 0 1 ++ (groupsBytes [(1, []), (5, [])] ++ 3 :: [])) }

/-- **C117, where it fails.** A printer that reports unsupported attributes is asked for its own: the program ends with 0, and there is a warning on the standard error. -/
theorem C117_false : ¬ C117_full := by
  intro hall
  have hm : (match (main warningWorld [ascii "get-attrs", ascii "ipp://p/"]).out with
    | .ok e => e.code == 0
    | _ => false) = true := by decide +kernel
  cases ho : (main warningWorld [ascii "get-attrs", ascii "ipp://p/"]).out with
  | ok e =>
    rw [ho] at hm
    have := hall { name := [], what := [], opening := [], absolute := id, dump := fun _ => [] } { dump := fun _ => [], what := [], temp := [] } _ _ e ho (eq_of_beq hm)
    revert this
    unfold clientErrors
    rw [List.append_eq_nil_iff]
    intro this
    exact absurd this.1 (by decide +kernel)
  | throws _ => rw [ho] at hm; cases hm
  | ub => rw [ho] at hm; cases hm
  | hang => rw [ho] at hm; cases hm

/-- Runs that meet the hypotheses of C117_client: one that warns (above), and one with overrides that cannot be read -/
def overriddenWorld : World :=
  { world with
    attrsReply := .ok (headerBytes 2 0 0 1 ++ (groupsBytes [(1, [])] ++ 3 :: [])), files := { world.files with overrides := some (ascii "{"), parse := fun _ => .error (ascii "no end") } }

example : (match (main overriddenWorld [ascii "get-attrs", ascii "ipp://p/"]).out with
  | .ok e => e.code == 0
  | _ => false) = true := by decide +kernel

example : libSays { dump := fun _ => [], what := [], temp := [] } overriddenWorld [ascii "get-attrs", ascii "ipp://p/"] = ascii "Bad overrides file: no end\n" := by
  decide +kernel

/-- A run that meets the hypotheses of C117_quiet -/
def plainWorld : World := { overriddenWorld with files := world.files }

example : (match (main plainWorld [ascii "get-attrs", ascii "ipp://p/"]).out with
  | .ok e => e.code == 0
  | _ => false) = true := by decide +kernel

example : plainWorld.files.overrides = none ∧ AllTaken plainWorld.attrsReply ∧ AllTaken plainWorld.reply ∧ AllTaken plainWorld.env.createReply ∧ AllTaken plainWorld.env.printReply := by
  refine ⟨rfl, fun data h => ?_, fun data h => ?_, fun data h => ?_, fun data h => ?_⟩
  · cases h
    refine ⟨2, 0, 0, 1, [(1, [])], [], rfl, ?_, by simp, rfl⟩
    intro g hg
    cases List.mem_singleton.mp hg
    unfold RecvOk
    exact ⟨by decide +kernel, fun name attr h => nomatch h⟩
  · cases h
  · cases h
  · cases h

end Verif.Client
