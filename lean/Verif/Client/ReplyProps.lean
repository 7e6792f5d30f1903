import Verif.Client.CommandProps
import Verif.Core.Lists

/-!
# Properties C69, C70 and C74 for every reply: messages with attributes of any type, and replies that are no messages
-/

namespace Verif.Client

open Ipp Ipp.Spec Job Job.Spec Printer Printer.Spec Tools Tools.Spec Spec

namespace Spec

/-- No message came: an error of the network, or data that is not a message. -/
inductive NoMessage (reply : Except Bytes Bytes) : Prop where
  /-- an error of the network -/
  | network (text : Bytes) (h : reply = .error text)
  /-- data that is not a message -/
  | garbled (data : Bytes) (e : Exn) (h : reply = .ok data) (hd : decodeMsg data = .throws e)

/-- The reply is this message (with anything after it). -/
def Says (reply : Except Bytes Bytes) (m : Msg) : Prop := ∃ data rest, reply = .ok data ∧ decodeMsg data = .ok (m, rest)

/-- If the attribute is there, then its value is a number. -/
def NumberOrNone (a : Attrs) (name : Bytes) : Prop := ∀ tag v, KMap.get? a name = some (tag, v) → ∃ i, v = .int i

/-- If the attribute is there, then its value is a text. -/
def TextOrNone (a : Attrs) (name : Bytes) : Prop := ∀ tag v, KMap.get? a name = some (tag, v) → ∃ s, v = .str s

/-- What is shown of a job has the right types. -/
def JobReadable (a : Attrs) : Prop :=
  NumberOrNone a (ascii "job-id") ∧ TextOrNone a (ascii "job-name") ∧ NumberOrNone a (ascii "job-state") ∧ TextOrNone a (ascii "job-printer-state-message")

/-- The program ends with an exception. -/
def Dies (x : Act End) : Prop := x.out = .throws .badVariant

end Spec

/-! ## Proofs -/

theorem received_none {reply : Except Bytes Bytes} (h : NoMessage reply) : ∃ t, received reply = .ok (.error t) := by
  rcases h with ⟨text, rfl⟩ | ⟨data, e, rfl, hd⟩
  · exact ⟨text, rfl⟩
  · exact ⟨[], by unfold received; simp only [hd]⟩

theorem received_says {reply : Except Bytes Bytes} {m : Msg} (h : Says reply m) : received reply = .ok (.ok m) := by
  obtain ⟨data, rest, rfl, hd⟩ := h
  unfold received
  simp only [hd]

theorem getString_cases (a : Attrs) (name df : Bytes) :
    (TextOrNone a name ∧ ∃ s, getString a name df = .ok s) ∨ (¬ TextOrNone a name ∧ getString a name df = .throws .badVariant) := by
  unfold getString Attrs.get TextOrNone
  cases h : KMap.get? a name with
  | none => exact .inl ⟨fun _ _ h => (by cases h), _, rfl⟩
  | some x =>
    obtain ⟨tag, v⟩ := x
    cases v with
    | str s => exact .inl ⟨fun t v h => (by cases h; exact ⟨s, rfl⟩), s, rfl⟩
    | _ => exact .inr ⟨fun h => (by obtain ⟨_, h⟩ := h _ _ rfl; cases h), rfl⟩

theorem getInteger_cases (a : Attrs) (name : Bytes) :
    (NumberOrNone a name ∧ ∃ s, getInteger a name = .ok s) ∨ (¬ NumberOrNone a name ∧ getInteger a name = .throws .badVariant) := by
  unfold getInteger Attrs.get NumberOrNone
  cases h : KMap.get? a name with
  | none => exact .inl ⟨fun _ _ h => (by cases h), _, rfl⟩
  | some x =>
    obtain ⟨tag, v⟩ := x
    cases v with
    | int s => exact .inl ⟨fun t v h => (by cases h; exact ⟨s, rfl⟩), s, rfl⟩
    | _ => exact .inr ⟨fun h => (by obtain ⟨_, h⟩ := h _ _ rfl; cases h), rfl⟩

theorem jobInfo_cases (a : Attrs) : (JobReadable a ∧ ∃ i, jobInfo a = .ok i) ∨ (¬ JobReadable a ∧ jobInfo a = .throws .badVariant) := by
  unfold jobInfo JobReadable
  rcases getInteger_cases a (ascii "job-id") with ⟨h1, i1, e1⟩ | ⟨h1, e1⟩
  swap
  · exact .inr ⟨fun h => h1 h.1, by rw [e1]; rfl⟩
  rcases getString_cases a (ascii "job-name") [] with ⟨h2, i2, e2⟩ | ⟨h2, e2⟩
  swap
  · exact .inr ⟨fun h => h2 h.2.1, by rw [e1, e2]; rfl⟩
  rcases getInteger_cases a (ascii "job-state") with ⟨h3, i3, e3⟩ | ⟨h3, e3⟩
  swap
  · exact .inr ⟨fun h => h3 h.2.2.1, by rw [e1, e2, e3]; rfl⟩
  rcases getString_cases a (ascii "job-printer-state-message") [] with ⟨h4, i4, e4⟩ | ⟨h4, e4⟩
  swap
  · exact .inr ⟨fun h => h4 h.2.2.2, by rw [e1, e2, e3, e4]; rfl⟩
  exact .inl ⟨⟨h1, h2, h3, h4⟩, _, by rw [e1, e2, e3, e4]; rfl⟩

theorem jobInfos_cases (l : List Attrs) :
    ((∀ a ∈ l, JobReadable a) ∧ ∃ is, jobInfos l = .ok is ∧ is.length = l.length) ∨ (¬ (∀ a ∈ l, JobReadable a) ∧ jobInfos l = .throws .badVariant) := by
  induction l with
  | nil => exact .inl ⟨fun _ h => (by cases h), [], rfl, rfl⟩
  | cons a l ih =>
    unfold jobInfos
    rcases jobInfo_cases a with ⟨h1, i, e1⟩ | ⟨h1, e1⟩
    swap
    · exact .inr ⟨fun h => h1 (h a (List.mem_cons_self ..)), by rw [e1]; rfl⟩
    rcases ih with ⟨h2, is, e2, hl⟩ | ⟨h2, e2⟩
    swap
    · exact .inr ⟨fun h => h2 fun b hb => h b (List.mem_cons_of_mem _ hb), by rw [e1, e2]; rfl⟩
    refine .inl ⟨fun b hb => ?_, i :: is, by rw [e1, e2]; rfl, by simp [hl]⟩
    rcases List.mem_cons.mp hb with rfl | hb
    · exact h1
    · exact h2 b hb

/-- C74, for every reply: `cancel-job` ends with 0 exactly if the reply is a message with a status of success; if the printer refuses with a message that is not a
text, the program ends with an exception; in all other cases it ends with 1. -/
theorem C74_cancel_exact (w : World) (args : List Bytes) (uses : List Use) (addr : Bytes)
    (ha : Accounts [helpOpt, verboseOpt, idOpt] [addrArg] args uses [addr]) (hh : lastUse uses [ascii "-h", ascii "--help"] = none) :
    ∃ k, main w (ascii "cancel-job" :: args) = afterAttrs w addr k ∧
      ∀ id, InInt32 id → word uses [ascii "--id"] = some (intText id) → ∀ p, Fits p →
        (NoMessage w.reply → EndsWith w (k p) 1) ∧
        ∀ m, Says w.reply m →
          (m.opOrStatus ≤ 0xff → EndsWith w (k p) 0) ∧
          (0xff < m.opOrStatus → TextOrNone m.opAttrs (ascii "status-message") → EndsWith w (k p) 1) ∧
          (0xff < m.opOrStatus → ¬ TextOrNone m.opAttrs (ascii "status-message") → Dies (k p)) := by
  have hc : (ascii "cancel-job", [helpOpt, verboseOpt, idOpt], [addrArg]) ∈ commands := by simp [commands]
  obtain ⟨r, _, h2, h3⟩ := main_of (w := w) hc ha hh
  have hi := int_eq (command_opts hc).1 ha.uses (i := 2) (names := [ascii "--id"]) rfl
  refine ⟨_, h3, fun id hid hw p hf => ?_⟩
  have e : command w p (ascii "cancel-job") r = (cancelJob (nextId w p) p id w.reply >>= fun a => pure (endOf w a)) := by
    rw [(command_eq w p r).2.2.2.2, h2, hi.2, hw]
    show cancelCommand w p (stoi (intText id)) = _
    rw [stoi_intText hid]
    rfl
  obtain ⟨m, bytes, h5, h6, h7⟩ := cancelJob_eq hf (nextId w p) id hid w.reply
  simp only [e]
  refine ⟨fun hn => ?_, fun m hm => ⟨fun hs => ?_, fun hs ht => ?_, fun hs ht => ?_⟩⟩
  · obtain ⟨t, hr⟩ := received_none hn
    have := endOf_ends (w := w) (x := cancelJob (nextId w p) p id w.reply) (e := some t) (by rw [h7, hr]; rfl)
    simpa using this
  · have := endOf_ends (w := w) (x := cancelJob (nextId w p) p id w.reply) (e := none) (by
      rw [h7, received_says hm]
      simp only [Outcome.bind_ok, cancelResult]
      rw [if_neg (by rw [gt_iff_lt, UInt16.not_lt]; exact hs)])
    simpa using this
  · rcases getString_cases m.opAttrs (ascii "status-message") (ascii "unknown") with ⟨_, s, h8⟩ | ⟨h8, _⟩
    · have := endOf_ends (w := w) (x := cancelJob (nextId w p) p id w.reply) (e := some s) (by
        rw [h7, received_says hm]
        simp only [Outcome.bind_ok, cancelResult]
        rw [if_pos hs, h8]
        rfl)
      simpa using this
    · exact absurd ht h8
  · rcases getString_cases m.opAttrs (ascii "status-message") (ascii "unknown") with ⟨h8, _⟩ | ⟨_, h8⟩
    · exact absurd h8 ht
    · unfold Dies
      rw [bindPure, h7, received_says hm]
      simp only [Outcome.bind_ok, cancelResult]
      rw [if_pos hs, h8]
      rfl

/-- C74, for every reply: `get-jobs` ends with 0 and shows as many jobs as there are groups of attributes of jobs in the message, whatever its status; unless what is
shown of a job has another type: then it ends with an exception. Without a message it ends with 1. -/
theorem C74_jobs_exact (w : World) (args : List Bytes) (uses : List Use) (addr : Bytes) (ha : Accounts [helpOpt, verboseOpt] [addrArg] args uses [addr])
    (hh : lastUse uses [ascii "-h", ascii "--help"] = none) :
    ∃ k, main w (ascii "get-jobs" :: args) = afterAttrs w addr k ∧ ∀ p, Fits p →
      (NoMessage w.reply → EndsWith w (k p) 1) ∧
      ∀ m, Says w.reply m →
        ((∀ a ∈ m.jobAttrs, JobReadable a) → ∃ l, (k p).out = .ok { code := 0, store := w.store, shown := .jobs l } ∧ l.length = m.jobAttrs.length) ∧
        (¬ (∀ a ∈ m.jobAttrs, JobReadable a) → Dies (k p)) := by
  obtain ⟨r, h1, h2, h3⟩ := main_of (w := w) (sub := ascii "get-jobs") (by simp [commands]) ha hh
  refine ⟨_, h3, fun p hf => ?_⟩
  have e : command w p (ascii "get-jobs") r = ⟨(getJobs (nextId w p) p w.reply).events, (getJobs (nextId w p) p w.reply).out >>= fun a => .ok (match a with
      | (some _, _) => failed w
      | (none, l) => { fine w with shown := .jobs l })⟩ := by
    rw [(command_eq w p r).2.2.2.1, ← bindPure]
    unfold getJobsCommand
    congr 1
    funext a
    obtain ⟨e, l⟩ := a
    cases e <;> rfl
  obtain ⟨m, bytes, h5, h6, h7⟩ := getJobs_eq hf (nextId w p) w.reply
  simp only [e]
  refine ⟨fun hn => ?_, fun m hm => ?_⟩
  · obtain ⟨t, hr⟩ := received_none hn
    refine ⟨failed w, ?_, rfl, rfl⟩
    rw [h7, hr]
    rfl
  · rw [h7, received_says hm]
    simp only [Outcome.bind_ok, listJobs]
    rcases jobInfos_cases m.jobAttrs with ⟨h8, is, h9, hl⟩ | ⟨h8, h9⟩
    · exact ⟨fun _ => ⟨is, by rw [h9]; rfl, hl⟩, fun h => absurd h8 h⟩
    · exact ⟨fun h => absurd h h8, fun _ => by unfold Dies; rw [h9]; rfl⟩

/-- C74, for every reply: `identify` ends with 0 exactly if a message came, whatever it says. -/
theorem C74_identify_exact (w : World) (args : List Bytes) (uses : List Use) (addr : Bytes)
    (ha : Accounts [helpOpt, verboseOpt] [addrArg] args uses [addr]) (hh : lastUse uses [ascii "-h", ascii "--help"] = none) :
    ∃ k, main w (ascii "identify" :: args) = afterAttrs w addr k ∧ ∀ p, KMap.get? p.attrs (ascii "identify-actions-supported") ≠ none → Fits p →
      (NoMessage w.reply → EndsWith w (k p) 1) ∧ ∀ m, Says w.reply m → EndsWith w (k p) 0 := by
  obtain ⟨r, h1, h2, h3⟩ := main_of (w := w) (sub := ascii "identify") (by simp [commands]) ha hh
  refine ⟨_, h3, fun p hi hf => ?_⟩
  have e : command w p (ascii "identify") r = (identify (nextId w p) p w.reply >>= fun a => pure (endOf w a)) := (command_eq w p r).1
  simp only [e]
  obtain ⟨m, bytes, h5, h6, h7⟩ := identify_eq hf hi (nextId w p) w.reply
  refine ⟨fun hn => ?_, fun m hm => ?_⟩
  · obtain ⟨t, hr⟩ := received_none hn
    have := endOf_ends (w := w) (x := identify (nextId w p) p w.reply) (e := some t) (by rw [h7, hr]; rfl)
    simpa using this
  · have := endOf_ends (w := w) (x := identify (nextId w p) p w.reply) (e := none) (by rw [h7, received_says hm]; rfl)
    simpa using this

/-- The request of `set-attrs` was sent: then the reply decides. -/
theorem set_replied {reqId : Nat} {p : Printer} {kvs : List (Bytes × Bytes)} {reply : Except Bytes Bytes} {e : Event} {es : List Event}
    (h : (setAttributes reqId p kvs reply).events = e :: es) :
    (setAttributes reqId p kvs reply).out = (received reply >>= fun r => pure (errorOf r)) := by
  unfold setAttributes at h ⊢
  cases ht : toSet p.attrs kvs [] with
  | throws x => rw [ht] at h; cases h
  | ub => rw [ht] at h; cases h
  | hang => rw [ht] at h; cases h
  | ok attrs =>
    rw [ht] at h
    simp only at h ⊢
    unfold sendAttributes at h ⊢
    cases hm : mkMsg p 0x13 [] [] attrs with
    | throws x => rw [hm] at h; cases h
    | ub => rw [hm] at h; cases h
    | hang => rw [hm] at h; cases h
    | ok m =>
      rw [hm, lift_bind_ok] at h
      rw [lift_bind_ok]
      unfold doRequest at h ⊢
      cases hb : encodeMsg reqId m with
      | throws x => rw [hb] at h; cases h
      | ub => rw [hb] at h; cases h
      | hang => rw [hb] at h; cases h
      | ok bytes =>
        rw [lift_bind_ok]
        cases received reply <;> rfl

/-- C74, for every reply: `set-attrs` with values that the printer's attributes can have ends with 0 exactly if a message came, whatever it says. -/
theorem C74_set_exact (w : World) (args : List Bytes) (uses : List Use) (addr text : Bytes)
    (ha : Accounts [helpOpt, verboseOpt] [addrArg, attrsArg] args uses [addr, text]) (hh : lastUse uses [ascii "-h", ascii "--help"] = none) :
    ∃ k, main w (ascii "set-attrs" :: args) = afterAttrs w addr k ∧
      ∀ kvs, Pairs text kvs → ∀ p, Fits p →
        (∀ n t, (n, t) ∈ kvs → n ≠ [] ∧ n.length < 65536 ∧ t.length < 65536 ∧ ∃ old v, KMap.get? p.attrs n = some old ∧ Spells old.1 t v) →
        (NoMessage w.reply → EndsWith w (k p) 1) ∧ ∀ m, Says w.reply m → EndsWith w (k p) 0 := by
  obtain ⟨r, h1, h2, h3⟩ := main_of (w := w) (sub := ascii "set-attrs") (by simp [commands]) ha hh
  have e : ∀ p, command w p (ascii "set-attrs") r = setAttrsCommand w p text := fun p => by rw [(command_eq w p r).2.2.1, h1]; rfl
  refine ⟨_, h3, fun kvs hp p hf hs => ?_⟩
  obtain ⟨m, ⟨bytes, h4, h5⟩, h6, h7⟩ := C68_set_partial (nextId w p) p kvs w.reply hf hs
  have e' : command w p (ascii "set-attrs") r = (setAttributes (nextId w p) p kvs w.reply >>= fun a => pure (endOf w a)) := by
    rw [e]
    unfold setAttrsCommand
    rw [(keyValues_pairs text kvs).mpr hp]
  simp only [e']
  have hout := set_replied h4
  refine ⟨fun hn => ?_, fun m hm => ?_⟩
  · obtain ⟨t, hr⟩ := received_none hn
    have := endOf_ends (w := w) (x := setAttributes (nextId w p) p kvs w.reply) (e := some t) (by rw [hout, hr]; rfl)
    simpa using this
  · have := endOf_ends (w := w) (x := setAttributes (nextId w p) p kvs w.reply) (e := none) (by rw [hout, received_says hm]; rfl)
    simpa using this

/-- C74: when no message comes in reply to the request for the attributes, an accepted command line of any sub-command sends this request only, changes no saved
settings and ends with 1. -/
theorem C74_no_attrs (w : World) {sub : Bytes} {opts : List Opt} {poss : List Pos} {rest : List Bytes} {uses : List Use} {addr : Bytes} {more : List Bytes}
    (hc : (sub, opts, poss) ∈ commands) (ha : Accounts opts poss rest uses (addr :: more)) (hh : lastUse uses [ascii "-h", ascii "--help"] = none)
    (hl : addr.length < 65536) (hu : w.user.length < 65536) (hn : ¬ IsFile { addr := addr, user := w.user, attrs := [] }) (hr : NoMessage w.attrsReply) :
    (∃ m, Posts (main w (sub :: rest)).events m ∧ IsRequest { addr := addr, user := w.user, attrs := [] } 0xb [] [] m) ∧
      EndsWith w (main w (sub :: rest)) 1 := by
  obtain ⟨r, _, _, h3⟩ := main_of (w := w) hc ha hh
  rw [h3]
  have hf : Fits { addr := addr, user := w.user, attrs := [] } := ⟨hl, hu, fun v hv => by
    have h : KMap.get? ([] : Attrs) (ascii "ipp-versions-supported") = none := rfl
    rw [h] at hv
    exact hv.elim⟩
  obtain ⟨m, bytes, h1, h2, h4⟩ := refresh_eq hf hn w.files w.env.reqId w.attrsReply
  obtain ⟨t, ht⟩ := received_none hr
  have h5 : refresh w.files w.env.reqId { addr := addr, user := w.user, attrs := [] } w.attrsReply =
      ⟨[.post m bytes], .ok (some t, { addr := addr, user := w.user, attrs := [] })⟩ := by
    rw [h4, ht]
    show (⟨_, applyOverrides w.files [] >>= _⟩ : Act _) = _
    rw [applyOverrides_nil]
    rfl
  have h6 : afterAttrs w ((addr :: more).getD 0 []) (fun p => command w p sub r) = ⟨[.post m bytes], .ok { code := 1, store := w.store }⟩ := by
    unfold afterAttrs construct
    show Act.bind (refresh w.files w.env.reqId { addr := addr, user := w.user, attrs := [] } w.attrsReply) _ = _
    rw [h5]
    rfl
  rw [h6]
  exact ⟨⟨m, ⟨bytes, rfl, h2⟩, h1⟩, _, rfl, rfl, rfl⟩

/-- A reply of three bytes is no message; one with a status-message that is a number is one, and it is not readable. -/
example : NoMessage (.ok [1, 1, 0]) := .garbled _ .outOfRange rfl (by decide +kernel)

example : ∃ m, Says (.ok (response 2 0 0x0404 1 [(1, [(ascii "status-message", (0x21, .int 5))])])) m ∧ 0xff < m.opOrStatus ∧ ¬ TextOrNone m.opAttrs (ascii "status-message") := by
  have hd : decodeMsg (response 2 0 0x0404 1 [(1, [(ascii "status-message", (0x21, .int 5))])]) =
      .ok ({ majVsn := 2, minVsn := 0, opOrStatus := 0x0404, opAttrs := [(ascii "status-message", (0x21, .int 5))], jobAttrs := [], printerAttrs := [] }, []) := by decide +kernel
  refine ⟨_, ⟨_, _, rfl, hd⟩, by decide, fun h => ?_⟩
  obtain ⟨_, h⟩ := h 0x21 (.int 5) (by decide +kernel)
  cases h

example : ∃ m, Says (.ok (response 2 0 0 1 twoJobs)) m ∧ m.jobAttrs.length = 2 ∧ ∀ a ∈ m.jobAttrs, JobReadable a := by
  obtain ⟨m, h1, _, h2, _⟩ := received_response twoJobs_ok.1 2 0 0 1
  have hs : Says (.ok (response 2 0 0 1 twoJobs)) m := by
    unfold received at h1
    simp only at h1
    split at h1
    · rename_i m' r hd; cases h1; exact ⟨_, _, rfl, hd⟩
    · cases h1
    · cases h1
    · cases h1
  obtain ⟨l, h3, h4⟩ := jobInfos_describe h2 twoJobs_ok.2
  rcases jobInfos_cases m.jobAttrs with ⟨h5, is, h6, h7⟩ | ⟨_, h6⟩
  · refine ⟨m, hs, ?_, h5⟩
    rw [h2.length_eq]
    decide +kernel
  · rw [h3] at h6
    cases h6

end Verif.Client
