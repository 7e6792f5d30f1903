import Verif.Client.Says

/-!
# What ippclient says: proofs and theorems (C113)
-/

set_option linter.unusedVariables false
set_option linter.ambiguousOpen false

namespace Verif.Client

open Ipp Job Printer Tools Tools.Spec Printer.Spec Verif.Convert
open Verif.Convert.Spec (AsksHelp)
open Verif.Client.Spec

/-! ## The job -/

theorem doPrint_fails {env : Env} {id : Nat} {job : PrintJob} {f : ConvertFun} {m : Msg} {e : RunError} (h : (doPrint env id job f m).out = .ok (some e)) :
    (∃ x, e = .convert x ∧ (env.convert f job).2 = .ok (some x)) ∨ (∃ x, e = .network x ∧ env.printReply = .error x) ∨
    ∃ s m, e = .printFailed s ∧ Says env.printReply m ∧ 0xff ≤ m.opOrStatus ∧ StatusMessage m s := by
  unfold doPrint at h
  obtain ⟨b, -, h⟩ := bind_out h
  obtain ⟨-, -, h⟩ := bind_out h
  obtain ⟨-, -, h⟩ := bind_out h
  unfold convertAndAwait at h
  generalize hc : env.convert f job = c at h
  obtain ⟨blocks, r⟩ := c
  simp only at h
  cases r with
  | ok x =>
    cases x with
    | some x => cases h; exact .inl ⟨x, rfl, rfl⟩
    | none =>
      simp only at h
      unfold printResult at h
      cases hr : env.printReply with
      | error x => rw [hr] at h; cases h; exact .inr (.inl ⟨x, rfl, rfl⟩)
      | ok data =>
        rw [hr] at h
        simp only at h
        obtain ⟨⟨m, rest⟩, hm, h⟩ := bind_out h
        simp only at h
        split at h
        · exfalso
          unfold showJob at h
          split at h
          · cases h
          · split at h
            · obtain ⟨_, _, h⟩ := bind_out h
              obtain ⟨_, _, h⟩ := bind_out h
              cases h
            · cases h
        · rename_i hs
          obtain ⟨s, hg, h⟩ := bind_out h
          cases h
          exact .inr (.inr ⟨s, m, rfl, ⟨data, rest, rfl, hm⟩, UInt16.not_lt.mp hs, status_message hg⟩)
  | _ => cases h

theorem run_fault (t : Talk) {w : World} {p : Printer} {job : PrintJob} {input fileName : Bytes} {pages : Int} {env : Env} {e : RunError}
    (henv : ∃ n b, env = { w.env with reqId := n, showJobId := b }) (h : (runJob env p job input fileName pages).out = .ok (some e)) :
    RunFault t w p job input fileName pages (runText t w input pages job e) := by
  have henv' := henv
  obtain ⟨n, b, he⟩ := henv
  unfold runJob runJobWith catchAll at h
  cases hx : (tryRun env p job.copy input fileName pages).out with
  | throws x => rw [hx] at h; cases h; exact .exception henv' hx
  | ub => rw [hx] at h; simp only at h; rw [hx] at h; cases h
  | hang => rw [hx] at h; simp only at h; rw [hx] at h; cases h
  | ok r =>
    rw [hx] at h
    simp only at h
    rw [hx] at h
    cases h
    unfold tryRun at hx
    obtain ⟨ops, -, hx⟩ := bind_out hx
    obtain ⟨⟨fe, j⟩, hf, hx⟩ := bind_out hx
    have hf : finalize env.pipelines input pages job.copy = .ok (fe, j) := hf
    have hf : finalize w.env.pipelines input pages job.copy = .ok (fe, j) := by rw [he] at hf; exact hf
    cases fe with
    | some je =>
      cases hx
      cases je with
      | noTarget => exact .target hf
      | badPaper => exact .paper hf
    | none =>
      simp only [afterFinalize] at hx
      cases hg : getConvertFun env.pipelines input j.targetFormat with
      | none =>
        rw [hg] at hx
        cases hx
        have := RunFault.conversion (t := t) (p := p) (fileName := fileName) hf (by rw [he] at hg; exact hg)
        simp only [runText, targetOf, hf]
        exact this
      | some f =>
        rw [hg] at hx
        simp only [deliver] at hx
        have hg : getConvertFun w.env.pipelines input j.targetFormat = some f := by rw [he] at hg; exact hg
        split at hx
        · exfalso
          unfold printToFile at hx
          obtain ⟨_, _, hx⟩ := bind_out hx
          obtain ⟨_, _, hx⟩ := bind_out hx
          generalize env.convert f j = c at hx
          obtain ⟨bs, r⟩ := c
          cases r with
          | ok x => cases x <;> cases hx
          | _ => cases hx
        · rename_i hfile
          have hfile : ¬ IsFile p := fun h => hfile ((startsWith_file p).mpr h)
          have print : ∀ {id : Nat} {m : Msg}, (doPrint env id j f m).out = .ok (some e) → RunFault t w p job input fileName pages (runText t w input pages job e) := by
            intro id m h
            rcases doPrint_fails h with ⟨x, rfl, hc⟩ | ⟨x, rfl, hr⟩ | ⟨s, m, rfl, h1, h2, h3⟩
            · exact .converter hf hfile hg (by rw [he] at hc; exact hc)
            · exact .network hfile (by rw [he] at hr; exact hr)
            · exact .document hfile (by rw [he] at h1; exact h1) h2 h3
          unfold transmit at hx
          split at hx
          · unfold createAndSend at hx
            obtain ⟨m, -, hx⟩ := bind_out hx
            obtain ⟨r, hr, hx⟩ := bind_out hx
            have hr := doRequest_received hr
            have hr : received w.env.createReply = .ok r := by rw [he] at hr; exact hr
            cases r with
            | error x => cases hx; exact .notCreated hfile (received_error t hr)
            | ok resp =>
              obtain ⟨g1, g2⟩ := received_message hr
              simp only [createResult] at hx
              unfold afterCreate at hx
              simp only at hx
              split at hx
              · obtain ⟨id, -, hx⟩ := bind_out hx
                unfold sendDocument at hx
                obtain ⟨m', -, hx⟩ := bind_out hx
                exact print hx
              · rename_i hn
                obtain ⟨s, hs, hx⟩ := bind_out hx
                cases hx
                simp only [runText, g2]
                refine .creation hfile g1 ?_ (status_message hs)
                by_cases hle : resp.opOrStatus ≤ 0xff
                · right
                  cases hk : KMap.has (resp.jobAttrs.head?.getD []) (ascii "job-id") with
                  | false => rfl
                  | true => exact absurd ⟨hle, hk⟩ hn
                · exact .inl (UInt16.not_le.mp hle)
          · unfold printJob at hx
            obtain ⟨m, -, hx⟩ := bind_out hx
            exact print hx

/-! ## `print` -/

theorem saved_false {w : World} {o : Options} {j : PrintJob} {s : Store} (h : saved w o j = .ok (false, s)) : o.save = true ∧ KMap.get? j.printerAttrs (ascii "printer-uuid") = none := by
  unfold saved at h
  split at h
  · rename_i hs
    refine ⟨hs, ?_⟩
    unfold saveSettings at h
    split at h
    · cases h
    · cases h
    · assumption
  · cases h

theorem saved_true {w : World} {o : Options} {j : PrintJob} {s : Store} (h : saved w o j = .ok (true, s)) (ho : o.save = true) : KMap.get? j.printerAttrs (ascii "printer-uuid") ≠ none := by
  unfold saved at h
  rw [if_pos ho] at h
  unfold saveSettings at h
  intro hn
  rw [hn] at h
  cases h

/-- `print`: the code, nothing but the job's number on the standard output, and what it says -/
theorem print_says (t : Talk) {w : World} {p : Printer} {o : Options} {inFile : Bytes} {e : End} (h : (printCommand w p o inFile).out = .ok e) :
    e.shown = .nothing ∧ ((e.code = 0 ∧ printSays t w p o inFile = [] ∧ Accepted t.name w p o inFile) ∨ (e.code = 1 ∧ PrintComplaint t w p o inFile (printSays t w p o inFile))) := by
  unfold printCommand at h
  obtain ⟨r, hr, h⟩ := bind_out h
  have hr : prepare w p o inFile = .ok r := hr
  have hr' := hr
  unfold prepare at hr
  obtain ⟨j, hj, hr⟩ := Outcome.bind_eq_ok.mp hr
  obtain ⟨j0, h0, hr⟩ := Outcome.bind_eq_ok.mp hr
  have he : (do let j ← createJob p; restored w o j : Outcome PrintJob) = .ok j0 := by rw [hj, Outcome.bind_ok, h0]
  have hsays : printSays t w p o inFile = match inputType w o inFile with
    | none => ascii "Failed to determine input file format. (Specify with --mime-type)." ++ [10]
    | some ty =>
      match runSteps (printSteps p o) (flags o j0) with
      | .ok none => stepsSay ((printSteps p o).zip (stepTexts t p.attrs)) (flags o j0)
      | .ok (some j') => launchSays t w p o inFile j' ty
      | _ => [] := by
    unfold printSays
    rw [he]
    rfl
  rw [hsays]
  have hp : (flags o j0).printerAttrs = p.attrs := by
    obtain ⟨a, b, rfl⟩ := restored_printer h0
    exact (job_new hj).1
  obtain ⟨v, -, hd⟩ := steps_do (formats_typed hj) o
  cases hi : inputType w o inFile with
  | none =>
    rw [hi] at hr
    cases hr
    cases h
    refine ⟨rfl, .inr ⟨rfl, ?_⟩⟩
    have e : ascii "Failed to determine input file format. (Specify with --mime-type).\n" = ascii "Failed to determine input file format. (Specify with --mime-type)." ++ [10] := by decide +kernel
    rw [← e]
    refine .type (Classical.byContradiction fun hn => ?_)
    obtain ⟨ty, ht⟩ := inputType_some hn
    rw [hi] at ht
    cases ht
  | some ty =>
    have hty : ¬ NoType w o inFile := fun hn => by rw [inputType_none hn] at hi; cases hi
    rw [hi] at hr
    simp only at hr ⊢
    obtain ⟨x, hx, hr⟩ := Outcome.bind_eq_ok.mp hr
    rw [hx]
    cases x with
    | none =>
      cases hr
      cases h
      exact ⟨rfl, .inr ⟨rfl, .option hty (steps_first hd (parts_tell t p o v) hp hx)⟩⟩
    | some j' =>
      obtain ⟨hcl, hp'⟩ := steps_clear hd (parts_tell t p o v) hp hx
      have hacc : Accepted t.name w p o inFile := ⟨hty, hcl⟩
      cases hr
      simp only [launch] at h
      simp only [launchSays]
      cases hn : countPages w ty inFile with
      | none =>
        rw [hn] at h
        cases h
        refine ⟨rfl, .inr ⟨rfl, ?_⟩⟩
        unfold countPages at hn
        split at hn
        · rename_i ht
          have e : ascii ")\n" = ascii ")" ++ [10] := by decide +kernel
          have := PrintComplaint.opening (t := t) (p := p) hacc (by rw [show ascii "application/pdf" = ty from ht.symm]; exact typeTold hi) hn
          rw [e] at this
          simpa using this
        · cases hn
      | some n =>
        rw [hn] at h
        simp only [submit] at h
        obtain ⟨⟨b, store⟩, hs, h⟩ := bind_out h
        have hs : saved w o j' = .ok (b, store) := hs
        simp only [hs] at h ⊢
        cases b with
        | false =>
          cases h
          obtain ⟨h1, h2⟩ := saved_false hs
          rw [hp'] at h2
          have e : ascii "Could not save settings. Aborting.\n" = ascii "Could not save settings. Aborting." ++ [10] := by decide +kernel
          rw [← e]
          exact ⟨rfl, .inr ⟨rfl, .saving hacc (typeTold hi) hn h1 h2⟩⟩
        | true =>
          simp only [if_true] at h
          obtain ⟨x, hrun, h⟩ := bind_out h
          cases h
          rw [hrun]
          cases x with
          | none => exact ⟨rfl, .inl ⟨rfl, rfl, hacc⟩⟩
          | some x => exact ⟨rfl, .inr ⟨rfl, .printing hacc hr' hn (fun ho => by rw [← hp']; exact saved_true hs ho) (run_fault t ⟨_, _, rfl⟩ hrun)⟩⟩

/-! ## The standard output -/

theorem texts_ids (es : List Event) : es.flatMap eventText = (shownIds es).flatMap (fun i => ascii "Job submitted successfully, with id: " ++ showInt i ++ [10]) := by
  unfold shownIds
  induction es with
  | nil => rfl
  | cons x r ih => cases x <;> simp only [eventText, List.filterMap_cons, List.flatMap_cons, List.nil_append, idOf, ih]

/-- Shows no number of a job -/
def Quiet {α : Type} (x : Act α) : Prop := shownIds x.events = []

theorem quiet_bind {α β : Type} {x : Act α} {f : α → Act β} (hx : Quiet x) (hf : ∀ a, Quiet (f a)) : Quiet (x >>= f) := by
  show shownIds (Act.bind x f).events = []
  unfold Act.bind
  split
  · rw [shown_append, hx, hf]; rfl
  · exact hx
  · exact hx
  · exact hx

theorem quiet_lift {α : Type} (x : Outcome α) : Quiet (Act.lift x) := by cases x <;> rfl

theorem quiet_request (n : Nat) (m : Msg) (reply : Except Bytes Bytes) : Quiet (doRequest n m reply) :=
  quiet_bind (quiet_lift _) fun _ => quiet_bind rfl fun _ => quiet_lift _

theorem quiet_construct (w : World) (addr : Bytes) : Quiet (construct w.files w.env.reqId addr w.user w.attrsReply) := by
  unfold construct refresh
  split
  · exact quiet_lift _
  · exact quiet_bind (quiet_lift _) fun _ => quiet_bind (quiet_request ..) fun _ => quiet_bind (quiet_lift _) fun _ => rfl

theorem shown_files (bs : List Bytes) : shownIds (bs.map .file) = [] := by
  unfold shownIds
  rw [List.filterMap_eq_nil_iff]
  intro e he
  obtain ⟨b, _, rfl⟩ := List.mem_map.mp he
  rfl

theorem quiet_file {env : Env} {p : Printer} (hp : IsFile p) (job : PrintJob) (input name : Bytes) (pages : Int) : Quiet (runJob env p job input name pages) := by
  have key : Quiet (tryRun env p job.copy input name pages) := by
    unfold tryRun
    refine quiet_bind (quiet_lift _) fun ops => quiet_bind (quiet_lift _) fun r => ?_
    obtain ⟨fe, j⟩ := r
    cases fe with
    | some e => rfl
    | none =>
      simp only [afterFinalize]
      cases getConvertFun env.pipelines input j.targetFormat with
      | none => rfl
      | some f =>
        simp only [deliver]
        rw [if_pos ((startsWith_file p).mpr hp)]
        unfold printToFile
        refine quiet_bind (quiet_lift _) fun ext => quiet_bind rfl fun _ => ?_
        generalize env.convert f j = c
        obtain ⟨bs, r⟩ := c
        unfold Quiet
        cases r with
        | ok x =>
          cases x with
          | none => simp only [fileEvents]; rw [shown_append, shown_files]; rfl
          | some x => exact shown_files bs
        | _ => exact shown_files bs
  unfold runJob runJobWith catchAll
  split
  · exact key
  · exact key

theorem quiet_print {w : World} {p : Printer} (hp : IsFile p) (o : Options) (inFile : Bytes) : Quiet (printCommand w p o inFile) := by
  unfold printCommand
  refine quiet_bind (quiet_lift _) fun r => ?_
  cases r with
  | none => rfl
  | some x =>
    obtain ⟨j, ty⟩ := x
    simp only [launch]
    split
    · rfl
    · unfold submit
      refine quiet_bind (quiet_lift _) fun x => ?_
      obtain ⟨b, s⟩ := x
      simp only
      split
      · exact quiet_bind (quiet_file hp ..) fun _ => rfl
      · rfl

/-! ## The printer's attributes -/

theorem attributes_fail (t : Talk) {w : World} {addr e : Bytes} {p : Printer} (h : (construct w.files w.env.reqId addr w.user w.attrsReply).out = .ok (some e, p)) :
    NoAttributes t w addr (attrsText t w addr e) := by
  unfold construct refresh at h
  unfold attrsText
  by_cases hf : Text.startsWith addr (ascii "file://") = true
  · rw [if_pos hf] at h
    rw [if_pos hf]
    obtain ⟨path, rfl⟩ := (startsWith_file { addr := addr, user := w.user, attrs := [] }).mp hf
    have hd : (ascii "file://" ++ path).drop 7 = path := by
      rw [show 7 = (ascii "file://").length from by decide +kernel, List.drop_left]
    have h : refreshFromFile w.files { addr := ascii "file://" ++ path, user := w.user, attrs := [] } = .ok (some e, p) := h
    unfold refreshFromFile at h
    rw [hd] at h ⊢
    cases hr : w.files.read path with
    | none => rw [hr] at h; cases h; exact .noFile hr
    | some text =>
      rw [hr] at h
      simp only at h ⊢
      obtain ⟨⟨ret, fe, a⟩, hfake, h⟩ := Outcome.bind_eq_ok.mp h
      simp only at h
      have hfe : fe = some e := by
        split at h
        · cases h; rfl
        · obtain ⟨a', -, h⟩ := Outcome.bind_eq_ok.mp h
          cases h
          rfl
      subst hfe
      unfold fakeAttrs at hfake
      cases text with
      | nil => exact .empty hr
      | cons b r =>
        simp only at hfake ⊢
        split at hfake
        · rename_i hb
          subst hb
          rw [if_pos rfl]
          cases hp : w.files.parse (123 :: r) with
          | error x => rw [hp] at hfake; cases hfake; exact .noJson hr hp
          | ok j =>
            rw [hp] at hfake
            simp only at hfake ⊢
            cases hj : attrsFromJson j with
            | throws x => exact .json hr hp hj
            | ok x => rw [hj] at hfake; cases hfake
            | ub => rw [hj] at hfake; cases hfake
            | hang => rw [hj] at hfake; cases hfake
        · rename_i hb
          rw [if_neg hb]
          cases hj : decodeMsg (b :: r) with
          | throws x => exact .message hr hb hj
          | ok x => rw [hj] at hfake; cases hfake
          | ub => rw [hj] at hfake; cases hfake
          | hang => rw [hj] at hfake; cases hfake
  · rw [if_neg hf] at h ⊢
    obtain ⟨m, -, h⟩ := bind_out h
    obtain ⟨r, hr, h⟩ := bind_out h
    obtain ⟨a, -, h⟩ := bind_out h
    injection h with h
    injection h with h1 h2
    rw [errorOf_some h1] at hr
    exact .reply (fun h => hf ((startsWith_file { addr := addr, user := w.user, attrs := [] }).mpr h)) (received_error t (doRequest_received hr))

/-! ## The sub-commands -/

theorem one_word {opts : List Opt} {rest pos : List Bytes} {uses : List Use} (h : Accounts opts [addrArg] rest uses pos) : ∃ a, pos = [a] := by
  have h1 := h.notMore
  match pos, h with
  | [], h => exact absurd (h.enough 0 _ rfl (by simp)) (by decide)
  | [a], _ => exact ⟨a, rfl⟩
  | _ :: _ :: _, _ => simp at h1

theorem two_words {opts : List Opt} {q : Pos} (hq : q.optional = false) {rest pos : List Bytes} {uses : List Use} (h : Accounts opts [addrArg, q] rest uses pos) : ∃ a b, pos = [a, b] := by
  have h1 := h.notMore
  match pos, h with
  | [], h => exact absurd (h.enough 0 _ rfl (by simp)) (by decide)
  | [a], h => exact absurd (h.enough 1 _ rfl (by simp)) (by simp [hq])
  | [a, b], _ => exact ⟨a, b, rfl⟩
  | _ :: _ :: _ :: _, _ => simp at h1

theorem errorOf_none {r : Except Bytes Msg} (h : errorOf r = none) : ∃ m, r = .ok m := by
  cases r with
  | error x => cases h
  | ok m => exact ⟨m, rfl⟩

theorem identify_none {n : Nat} {p : Printer} {reply : Except Bytes Bytes} (h : (identify n p reply).out = .ok none) : ∃ m, Says reply m := by
  unfold identify at h
  split at h
  · obtain ⟨m, -, h⟩ := bind_out h
    obtain ⟨r, hr, h⟩ := bind_out h
    injection h with h
    obtain ⟨m', rfl⟩ := errorOf_none h
    exact ⟨m', (received_message (doRequest_received hr)).1⟩
  · cases h

theorem set_none {n : Nat} {p : Printer} {kvs : List (Bytes × Bytes)} {reply : Except Bytes Bytes} (h : (setAttributes n p kvs reply).out = .ok none) : ∃ m, Says reply m := by
  unfold setAttributes at h
  split at h
  · obtain ⟨m, -, h⟩ := bind_out h
    obtain ⟨r, hr, h⟩ := bind_out h
    injection h with h
    obtain ⟨m', rfl⟩ := errorOf_none h
    exact ⟨m', (received_message (doRequest_received hr)).1⟩
  · cases h
  · cases h
  · cases h

theorem cancel_none {n : Nat} {p : Printer} {id : Int} {reply : Except Bytes Bytes} (h : (cancelJob n p id reply).out = .ok none) :
    ∃ m, Says reply m ∧ ¬ 0xff < m.opOrStatus := by
  unfold cancelJob at h
  obtain ⟨m, -, h⟩ := bind_out h
  obtain ⟨r, hr, h⟩ := bind_out h
  have h : cancelResult r = .ok none := h
  cases r with
  | error x => cases h
  | ok m =>
    simp only [cancelResult] at h
    split at h
    · obtain ⟨s, -, h⟩ := Outcome.bind_eq_ok.mp h
      cases h
    · rename_i hn
      exact ⟨m, (received_message (doRequest_received hr)).1, hn⟩

/-- The end of a sub-command, with what was said -/
def Settled (t : Talk) (w : World) (args : List Bytes) (x : Act End) (e : End) (stderr : Bytes) : Prop :=
  (e.code = 0 ∧ stderr = [] ∧ ClientOutput t w args ((shownIds x.events).flatMap (fun i => ascii "Job submitted successfully, with id: " ++ showInt i ++ [10]) ++ shownText t e.shown)) ∨
  (e.code = 1 ∧ (shownIds x.events = [] ∧ e.shown = .nothing) ∧ ClientComplaint t w args stderr)

theorem command_says (t : Talk) {w : World} {sub : Bytes} {opts : List Opt} {poss : List Pos} {rest pos : List Bytes} {uses : List Use} {p : Printer} {r : Result} {e : End}
    (hc : (sub, opts, poss) ∈ commands) (ha : Accounts opts poss rest uses pos) (hh : ¬ AsksHelp opts rest) (hp : Connected w (pos.getD 0 []) p)
    (hv : r.vals = lastValue uses) (hr : r.positional = pos) (h : (command w p sub r).out = .ok e) :
    Settled t w (sub :: rest) (command w p sub r) e (commandSays t w p sub r) := by
  have hg : Given (sub :: rest) sub uses pos := ⟨opts, poss, rest, hc, rfl, ha, hh⟩
  unfold Settled
  simp only [commands, List.mem_cons, List.not_mem_nil, or_false, Prod.mk.injEq] at hc
  rcases hc with ⟨rfl, rfl, rfl⟩ | ⟨rfl, rfl, rfl⟩ | ⟨rfl, rfl, rfl⟩ | ⟨rfl, rfl, rfl⟩ | ⟨rfl, rfl, rfl⟩ | ⟨rfl, rfl, rfl⟩ | ⟨rfl, rfl, rfl⟩
  · have e1 : command w p (ascii "info") r = infoCommand w p := by unfold command; rw [if_pos rfl]
    have e2 : commandSays t w p (ascii "info") r = [] := by unfold commandSays; rw [if_pos rfl]
    obtain ⟨addr, rfl⟩ := one_word ha
    rw [e1] at h ⊢
    rw [e2]
    have hq : shownIds (infoCommand w p).events = [] := quiet_bind (quiet_lift _) fun _ => rfl
    unfold infoCommand at h
    obtain ⟨text, ht, h⟩ := bind_out h
    cases h
    rw [hq]
    exact .inl ⟨rfl, rfl, .info hg hp ht⟩
  · have e1 : command w p (ascii "identify") r = identifyCommand w p := by unfold command; rw [if_neg (by decide +kernel), if_pos rfl]
    have e2 : commandSays t w p (ascii "identify") r = identifySays t w p := by unfold commandSays; rw [if_neg (by decide +kernel), if_pos rfl]
    obtain ⟨addr, rfl⟩ := one_word ha
    rw [e1] at h ⊢
    rw [e2]
    have hq : shownIds (identifyCommand w p).events = [] := by
      refine quiet_bind ?_ fun _ => rfl
      unfold identify
      split
      · exact quiet_bind (quiet_lift _) fun _ => quiet_bind (quiet_request ..) fun _ => rfl
      · rfl
    unfold identifyCommand at h
    obtain ⟨x, hx, h⟩ := bind_out h
    cases h
    rw [hq]
    unfold identifySays
    rw [hx]
    cases x with
    | none =>
      obtain ⟨m, hm⟩ := identify_none hx
      exact .inl ⟨rfl, rfl, .nothing hg hp (by simp) hm (fun h => absurd h (by decide +kernel))⟩
    | some x =>
      refine .inr ⟨rfl, ⟨rfl, rfl⟩, ?_⟩
      rcases identify_some (t := t) hx with ⟨h1, rfl⟩ | ⟨h1, h2⟩
      · have e3 : ascii "Identify failed: Identify not supported.\n" = ascii "Identify failed: " ++ ascii "Identify not supported." ++ [10] := by decide +kernel
        have := ClientComplaint.cannotIdentify (t := t) hg hp h1
        rw [e3] at this
        simpa [KMap.has, h1] using this
      · simp only [h1, if_true]
        exact .identify hg hp h2
  · have e1 : command w p (ascii "get-attrs") r = pure { fine w with shown := .attrs (attrsToJson p.attrs) } := by
      unfold command; rw [if_neg (by decide +kernel), if_neg (by decide +kernel), if_pos rfl]
    have e2 : commandSays t w p (ascii "get-attrs") r = [] := by unfold commandSays; rw [if_neg (by decide +kernel), if_neg (by decide +kernel), if_pos rfl]
    obtain ⟨addr, rfl⟩ := one_word ha
    rw [e1] at h ⊢
    rw [e2]
    cases h
    exact .inl ⟨rfl, rfl, .attributes hg hp⟩
  · have e1 : command w p (ascii "set-attrs") r = setAttrsCommand w p (r.positional.getD 1 []) := by
      unfold command; rw [if_neg (by decide +kernel), if_neg (by decide +kernel), if_neg (by decide +kernel), if_pos rfl]
    have e2 : commandSays t w p (ascii "set-attrs") r = setAttrsSays t w p (r.positional.getD 1 []) := by
      unfold commandSays; rw [if_neg (by decide +kernel), if_neg (by decide +kernel), if_neg (by decide +kernel), if_pos rfl]
    obtain ⟨addr, text, rfl⟩ := two_words rfl ha
    rw [e1] at h ⊢
    rw [e2, hr]
    rw [hr] at h
    have e3 : [addr, text].getD 1 [] = text := rfl
    rw [e3] at h ⊢
    unfold setAttrsCommand at h ⊢
    unfold setAttrsSays
    cases hk : keyValues (Text.splitString [44] text) with
    | none =>
      rw [hk] at h
      cases h
      obtain ⟨before, after, h1, h2, h3⟩ := badPair_of hk
      exact .inr ⟨rfl, ⟨rfl, rfl⟩, .pair hg hp ⟨before, after, h1, h2, h3⟩⟩
    | some kvs =>
      rw [hk] at h
      simp only at h ⊢
      have hq : shownIds (setAttributes (nextId w p) p kvs w.reply >>= fun e => (pure (endOf w e) : Act End)).events = [] := by
        refine quiet_bind ?_ fun _ => rfl
        unfold setAttributes
        split
        · exact quiet_bind (quiet_lift _) fun _ => quiet_bind (quiet_request ..) fun _ => rfl
        · rfl
        · exact quiet_lift _
        · exact quiet_lift _
      obtain ⟨x, hx, h⟩ := bind_out h
      cases h
      rw [hq, hx]
      cases x with
      | none =>
        obtain ⟨m, hm⟩ := set_none hx
        exact .inl ⟨rfl, rfl, .nothing hg hp (by simp) hm (fun h => absurd h (by decide +kernel))⟩
      | some x =>
        refine .inr ⟨rfl, ⟨rfl, rfl⟩, ?_⟩
        unfold setAttributes at hx
        cases hs : toSet p.attrs kvs [] with
        | throws y =>
          obtain ⟨k, v, old, g1, g2, g3⟩ := toSet_throws hs
          exact .badValue hg hp (keyValues_mem hk k v g1) g2 g3
        | ok a =>
          rw [hs] at hx
          simp only [sendAttributes] at hx
          obtain ⟨m, -, hx⟩ := bind_out hx
          obtain ⟨y, hy, hx⟩ := bind_out hx
          injection hx with hx
          rw [errorOf_some hx] at hy
          exact .set hg hp (received_error t (doRequest_received hy))
        | ub => rw [hs] at hx; cases hx
        | hang => rw [hs] at hx; cases hx
  · have e1 : command w p (ascii "get-jobs") r = getJobsCommand w p := by
      unfold command; rw [if_neg (by decide +kernel), if_neg (by decide +kernel), if_neg (by decide +kernel), if_neg (by decide +kernel), if_pos rfl]
    have e2 : commandSays t w p (ascii "get-jobs") r = getJobsSays t w p := by
      unfold commandSays; rw [if_neg (by decide +kernel), if_neg (by decide +kernel), if_neg (by decide +kernel), if_neg (by decide +kernel), if_pos rfl]
    obtain ⟨addr, rfl⟩ := one_word ha
    rw [e1] at h ⊢
    rw [e2]
    have hq : shownIds (getJobsCommand w p).events = [] := by
      refine quiet_bind (quiet_bind (quiet_lift _) fun _ => quiet_bind (quiet_request ..) fun _ => quiet_lift _) fun x => ?_
      obtain ⟨x, l⟩ := x
      cases x <;> rfl
    unfold getJobsCommand at h
    obtain ⟨⟨x, l⟩, hx, h⟩ := bind_out h
    unfold getJobsSays
    rw [hx, hq]
    cases x with
    | none =>
      cases h
      obtain ⟨m, h1, h2⟩ := jobs_none hx
      exact .inl ⟨rfl, rfl, .jobs hg hp h1 h2⟩
    | some x =>
      cases h
      exact .inr ⟨rfl, ⟨rfl, rfl⟩, .jobs hg hp (jobs_some hx)⟩
  · have e1 : command w p (ascii "cancel-job") r = cancelCommand w p (numOf (r.vals 2)) := by
      unfold command
      rw [if_neg (by decide +kernel), if_neg (by decide +kernel), if_neg (by decide +kernel), if_neg (by decide +kernel), if_neg (by decide +kernel), if_pos rfl]
    have e2 : commandSays t w p (ascii "cancel-job") r = cancelSays t w p (numOf (r.vals 2)) := by
      unfold commandSays
      rw [if_neg (by decide +kernel), if_neg (by decide +kernel), if_neg (by decide +kernel), if_neg (by decide +kernel), if_neg (by decide +kernel), if_pos rfl]
    obtain ⟨addr, rfl⟩ := one_word ha
    rw [e1] at h ⊢
    rw [e2, hv] at *
    have hd := (command_opts (sub := ascii "cancel-job") (opts := [helpOpt, verboseOpt, idOpt]) (poss := [addrArg]) (by simp [commands])).1
    cases hn : numOf (lastValue uses 2) with
    | none =>
      rw [hn] at h
      cases h
      refine .inr ⟨rfl, ⟨rfl, rfl⟩, ?_⟩
      have e3 : ascii "Please specify a job id with --id.\n" = ascii "Please specify a job id with --id." ++ [10] := by decide +kernel
      have : lastUse uses [ascii "--id"] = none := by
        rcases value_cases hd ha.uses (i := 2) (o := idOpt) rfl rfl with ⟨h1, -, -⟩ | ⟨w', v, -, -, h3, h4⟩
        · exact h1
        · rw [h4] at hn
          cases hs : Tools.stoi w' with
          | none => rw [hs] at h3; cases h3
          | some k => rw [hs] at h3; cases h3; cases hn
      have := ClientComplaint.noId (t := t) hg hp this
      rw [e3] at this
      exact this
    | some id =>
      rw [hn] at h
      simp only [cancelCommand, cancelSays] at h ⊢
      have hq : shownIds (cancelJob (nextId w p) p id w.reply >>= fun e => (pure (endOf w e) : Act End)).events = [] :=
        quiet_bind (quiet_bind (quiet_lift _) fun _ => quiet_bind (quiet_request ..) fun _ => quiet_lift _) fun _ => rfl
      obtain ⟨x, hx, h⟩ := bind_out h
      cases h
      rw [hq, hx]
      cases x with
      | none =>
        obtain ⟨m, hm, hs⟩ := cancel_none hx
        exact .inl ⟨rfl, rfl, .nothing hg hp (by simp) hm fun _ => hs⟩
      | some x =>
        refine .inr ⟨rfl, ⟨rfl, rfl⟩, ?_⟩
        rcases cancel_some (t := t) hx with h1 | ⟨m, h1, h2, h3⟩
        · exact .cancel hg hp h1
        · exact .notCanceled hg hp h1 h2 h3
  · have e1 : command w p (ascii "print") r = printCommand w p (Options.of r.vals) (r.positional.getD 1 []) := by
      unfold command
      rw [if_neg (by decide +kernel), if_neg (by decide +kernel), if_neg (by decide +kernel), if_neg (by decide +kernel), if_neg (by decide +kernel),
        if_neg (by decide +kernel), if_pos rfl]
    have e2 : commandSays t w p (ascii "print") r = printSays t w p (Options.of r.vals) (r.positional.getD 1 []) := by
      unfold commandSays
      rw [if_neg (by decide +kernel), if_neg (by decide +kernel), if_neg (by decide +kernel), if_neg (by decide +kernel), if_neg (by decide +kernel),
        if_neg (by decide +kernel), if_pos rfl]
    obtain ⟨addr, inFile, rfl⟩ := two_words rfl ha
    rw [e1] at h ⊢
    rw [e2]
    rw [hr, hv] at h ⊢
    have e3 : [addr, inFile].getD 1 [] = inFile := rfl
    rw [e3] at h ⊢
    have hd := (command_opts (sub := ascii "print") (opts := printOpts) (poss := [addrArg, pdfArg]) (by simp [commands])).1
    have hid : (Options.of (lastValue uses)).printJobId = (lastUse uses [ascii "--print-job-id"]).isSome := switch_eq hd ha.uses (i := 27) rfl
    obtain ⟨hs, hx⟩ := print_says t h
    rw [hs]
    have hshown : e.code = 0 → Accepted t.name w p (Options.of (lastValue uses)) inFile → ClientOutput t w (ascii "print" :: rest)
        ((shownIds (printCommand w p (Options.of (lastValue uses)) inFile).events).flatMap (fun i => ascii "Job submitted successfully, with id: " ++ showInt i ++ [10]) ++ []) := by
      intro h0 hacc
      rw [List.append_nil]
      by_cases hf : IsFile p
      · rw [quiet_print hf]
        exact .printed hg hp hacc (.inr hf)
      · rcases print_shows hf h with ⟨h1, -⟩ | ⟨-, ⟨h1, h2⟩ | ⟨h1, h2⟩⟩
        · exact absurd h0 h1
        · rw [h2]
          rw [hid] at h1
          exact .printed hg hp hacc (.inl (by simpa using h1))
        · rw [hid] at h1
          exact .number hg hp hacc (by intro h; rw [h] at h1; cases h1) hf h2
    have hquiet : e.code = 1 → shownIds (printCommand w p (Options.of (lastValue uses)) inFile).events = [] := by
      intro h1
      by_cases hf : IsFile p
      · exact quiet_print hf ..
      · exact (C84_shown hf h).2 (.inl (by omega))
    rcases hx with ⟨h1, h2, h3⟩ | ⟨h1, h2⟩
    · exact .inl ⟨h1, h2, hshown h1 h3⟩
    · exact .inr ⟨h1, ⟨hquiet h1, rfl⟩, .print hg hp h2⟩

/-! ## Everything -/

theorem helpWanted_iff {sub : Bytes} {opts : List Opt} {poss : List Pos} (hc : (sub, opts, poss) ∈ commands) (rest : List Bytes) :
    HelpWanted sub rest ↔ ((getArgs opts poss rest).vals 0).isSome = true := by
  constructor
  · rintro ⟨opts', poss', hc', h⟩
    have := (subArgs_of hc rest).symm.trans (subArgs_of hc' rest)
    simp only [Sum.inr.injEq, Prod.mk.injEq, true_and] at this
    rw [this]
    exact (asksHelp_iff (command_opts hc').2 poss' rest).mpr h
  · exact fun h => ⟨opts, poss, hc, (asksHelp_iff (command_opts hc).2 poss rest).mp h⟩

/-- **C113.** Every run of ippclient that ends: with a request for help among the options of a sub-command the help on it goes to the standard output; otherwise
either the code is 0, nothing goes to the standard error, and what was asked for to the standard output; or the code is 1, the standard output stays empty, and the standard
error says why, with the text that belongs to this reason. -/
theorem C113_says (t : Talk) (w : World) (args : List Bytes) (e : End) (h : (main w args).out = .ok e) : Outcomes t w args e.code (clientSays t w args) := by
  have e0 : ∀ m : String, ∀ m' : String, ascii m ++ [10, 10] = ascii m' → ∀ u, (printError (ascii m) u).stderr = ascii m' ++ u := fun m m' h u => by rw [printError_text, h]
  rcases subArgs_cases args with ⟨m, hm⟩ | ⟨sub, opts, poss, rest, rfl, hc, hs⟩
  · have hsay : clientSays t w args = printError m (clientHelpFor t (args.headD [])) := by unfold clientSays; rw [hm]
    unfold main at h
    rw [hm] at h
    cases h
    rw [hsay]
    cases args with
    | nil =>
      cases hm
      refine .inr ⟨fun _ _ h => (by cases h), .inr ⟨rfl, rfl, ?_⟩⟩
      rw [e0 _ "No sub-command given\n\n" (by decide +kernel), List.headD_nil, help_all t (by decide +kernel)]
      exact .none
    | cons sub rest =>
      obtain ⟨rfl, h2⟩ := subArgs_none hm
      refine .inr ⟨fun sub' rest' h hw => ?_, .inr ⟨rfl, rfl, ?_⟩⟩
      · cases h
        obtain ⟨opts, poss, hc, -⟩ := hw
        obtain ⟨s, hs, he⟩ := command_helped hc
        exact h2 s hs he
      · rw [e0 _ "Invalid sub-command\n\n" (by decide +kernel), List.headD_cons, help_all t h2]
        exact .unknown h2
  · have hmain : main w (sub :: rest) = if ((getArgs opts poss rest).vals 0).isSome then pure (fine w)
        else if (getArgs opts poss rest).success then withPrinter w sub (getArgs opts poss rest) else pure (failed w) := by unfold main; rw [hs]
    have hsay : clientSays t w (sub :: rest) = if ((getArgs opts poss rest).vals 0).isSome then { stdout := clientHelpFor t sub }
        else if (getArgs opts poss rest).success then { stdout := runOutput t (main w (sub :: rest)), stderr := printerSays t w sub (getArgs opts poss rest) }
        else printError (getArgs opts poss rest).errMsg (clientHelpFor t sub) := by unfold clientSays; rw [hs]
    rw [hsay]
    by_cases hw : ((getArgs opts poss rest).vals 0).isSome = true
    · rw [hmain, if_pos hw] at h
      rw [if_pos hw]
      cases h
      exact .inl ⟨sub, rest, rfl, (helpWanted_iff hc rest).mpr hw, rfl, help_usage t (command_helped hc), rfl⟩
    · have hno : ∀ sub' rest', sub :: rest = sub' :: rest' → ¬ HelpWanted sub' rest' := by
        intro sub' rest' h
        cases h
        rw [helpWanted_iff hc rest]
        exact hw
      have hh : ¬ AsksHelp opts rest := fun h => hw ((asksHelp_iff (command_opts hc).2 poss rest).mpr h)
      rw [if_neg hw] at hmain ⊢
      refine .inr ⟨hno, ?_⟩
      by_cases hok : (getArgs opts poss rest).success = true
      · rw [if_pos hok] at hmain ⊢
        obtain ⟨uses, pos, ha, hv, hr⟩ := C45_sound hok
        have hv : (getArgs opts poss rest).vals = lastValue uses := funext hv
        have hout : runOutput t (main w (sub :: rest)) = (shownIds (main w (sub :: rest)).events).flatMap (fun i => ascii "Job submitted successfully, with id: " ++ showInt i ++ [10]) ++ shownText t e.shown := by
          unfold runOutput
          rw [h, texts_ids]
        simp only
        rw [hout]
        rw [hmain] at h ⊢
        generalize hR : getArgs opts poss rest = r at *
        unfold withPrinter at h ⊢
        unfold printerSays
        obtain ⟨⟨x, p⟩, hx, h⟩ := bind_out h
        have hev : ∀ f : Option Bytes × Printer → Act End, shownIds (construct w.files w.env.reqId (r.positional.getD 0 []) w.user w.attrsReply >>= f).events = shownIds (f (x, p)).events := by
          intro f
          show shownIds (Act.bind _ f).events = _
          unfold Act.bind
          rw [hx]
          simp only
          rw [shown_append, quiet_construct w, List.nil_append]
        rw [hev, hx]
        cases x with
        | some m =>
          cases h
          refine .inr ⟨rfl, rfl, ?_⟩
          rw [hr]
          have hne : ∃ addr more, pos = addr :: more := by
            simp only [commands, List.mem_cons, List.not_mem_nil, or_false, Prod.mk.injEq] at hc
            rcases hc with ⟨_, _, rfl⟩ | ⟨_, _, rfl⟩ | ⟨_, _, rfl⟩ | ⟨_, _, rfl⟩ | ⟨_, _, rfl⟩ | ⟨_, _, rfl⟩ | ⟨_, _, rfl⟩
            · obtain ⟨a, rfl⟩ := one_word ha; exact ⟨_, _, rfl⟩
            · obtain ⟨a, rfl⟩ := one_word ha; exact ⟨_, _, rfl⟩
            · obtain ⟨a, rfl⟩ := one_word ha; exact ⟨_, _, rfl⟩
            · obtain ⟨a, b, rfl⟩ := two_words rfl ha; exact ⟨_, _, rfl⟩
            · obtain ⟨a, rfl⟩ := one_word ha; exact ⟨_, _, rfl⟩
            · obtain ⟨a, rfl⟩ := one_word ha; exact ⟨_, _, rfl⟩
            · obtain ⟨a, b, rfl⟩ := two_words rfl ha; exact ⟨_, _, rfl⟩
          obtain ⟨addr, more, rfl⟩ := hne
          rw [hr] at hx
          exact .attributes ⟨opts, poss, rest, hc, rfl, ha, hh⟩ (attributes_fail t hx)
        | none =>
          rw [hr] at hx
          rcases command_says t hc ha hh hx hv hr h with ⟨h1, h2, h3⟩ | ⟨h1, ⟨h2, h3⟩, h4⟩
          · exact .inl ⟨h1, h3, h2⟩
          · simp only [h2, h3]
            exact .inr ⟨h1, rfl, h4⟩
      · rw [if_neg hok] at hmain ⊢
        rw [hmain] at h
        cases h
        obtain ⟨uses, rest', h1, h2, h3⟩ := C95_message (by simpa using hok)
        refine .inr ⟨rfl, rfl, ?_⟩
        rw [printError_text]
        have := ClientComplaint.usage (t := t) (w := w) hc h2 h3 (help_usage t (command_helped hc))
        rw [← h1] at this
        exact this

/-- **C113.** The help on a sub-command needs no printer: nothing is sent, and the code is 0. -/
theorem C113_help (t : Talk) (w : World) (sub : Bytes) (rest : List Bytes) (h : HelpWanted sub rest) :
    ∃ e, main w (sub :: rest) = ⟨[], .ok e⟩ ∧ e.code = 0 ∧ Usage t.name sub (clientSays t w (sub :: rest)).stdout ∧ (clientSays t w (sub :: rest)).stderr = [] := by
  have hw := h
  obtain ⟨opts, poss, hc, ha⟩ := h
  have h0 := (helpWanted_iff hc rest).mp hw
  have hmain : main w (sub :: rest) = pure (fine w) := by unfold main; rw [subArgs_of hc]; simp only; rw [if_pos h0]
  refine ⟨fine w, hmain, rfl, ?_⟩
  rcases C113_says t w (sub :: rest) (fine w) (by rw [hmain]; rfl) with ⟨sub', rest', he, -, -, h1, h2⟩ | ⟨hn, -⟩
  · cases he
    exact ⟨h1, h2⟩
  · exact absurd hw (hn sub rest rfl)

/-- C113, as one would like it: a request for help alone is answered with the help, and code 0. -/
def C113_full : Prop := ∀ (t : Talk) (w : World) (a : Bytes) (e : End), a = ascii "-h" ∨ a = ascii "--help" → (main w [a]).out = .ok e →
  e.code = 0 ∧ (clientSays t w [a]).stdout = usageOf t.name clientHelp

/-- **C113, where it fails.** `ippclient --help`, and the same with `-h`, says `Invalid sub-command` and ends with 1; the help follows on the standard error. -/
theorem C113_help_false : ¬ C113_full := by
  intro h
  have h1 : (main world [ascii "--help"]).out = .ok (failed world) := by unfold main; rfl
  have := (h ⟨[], [], [], id, fun _ => []⟩ world (ascii "--help") (failed world) (.inr rfl) h1).1
  exact absurd this (by simp [failed])

/-- A client of this name -/
def talk : Talk := ⟨ascii "ippclient", ascii "what", ascii "why", fun f => ascii "/" ++ f, fun _ => ascii "{}"⟩

/-- The exit code, and what was said -/
def heard (w : World) (args : List Bytes) : Option (Nat × Bytes × Bytes) :=
  match (main w args).out with
  | .ok e => some (e.code, (clientSays talk w args).stdout, (clientSays talk w args).stderr)
  | _ => none

/-- A printer with one output bin, of which nothing else is known -/
def oneBin : World := { world with attrsReply := .ok ([1, 1, 0, 0, 0, 0, 0, 2, 4, 0x44, 0, 20] ++ ascii "output-bin-supported" ++ [0, 3] ++ ascii "top" ++ [3]) }

example : HelpWanted (ascii "cancel-job") [ascii "--id", ascii "3", ascii "-h"] := by
  rw [helpWanted_iff (opts := [helpOpt, verboseOpt, idOpt]) (poss := [addrArg]) (by simp [commands])]
  decide +kernel

set_option maxRecDepth 100000 in
example : heard world [ascii "info"] = some (1, [],
    ascii "Missing positional argument <printer address>\n\nUsage: ippclient <sub-command> [options]\n\nippclient info [options] <printer address>\n  -h, --help       Print this help text\n  -v, --verbose    Be verbose, print headers and progress\n\n\n\n") := by
  decide +kernel

example : heard world [ascii "info", ascii "file:///x"] = some (1, [], ascii "Could not get printer attributes: Failed to open fake-printer file.\n") := by decide +kernel
example : heard oneBin [ascii "identify", ascii "ipp://p/"] = some (1, [], ascii "Identify failed: Identify not supported.\n") := by decide +kernel
example : heard oneBin [ascii "set-attrs", ascii "ipp://p/", ascii "a=b,c"] = some (1, [], ascii "Bad key:value: c\n") := by decide +kernel
example : heard oneBin [ascii "print", ascii "--output-bin", ascii "left", ascii "ipp://p/", ascii "a.pdf"] =
    some (1, [], ascii "Argument --output-bin <string> (ipp: output-bin) has an invalid value. \nValid values are: top\n") := by decide +kernel
example : heard oneBin [ascii "print", ascii "ipp://p/", ascii "a.pdf"] = some (1, [], ascii "Print failed: Failed to determine traget format\n") := by decide +kernel
example : heard oneBin [ascii "get-attrs", ascii "ipp://p/"] = some (0, ascii "{}", []) := by decide +kernel

end Verif.Client
