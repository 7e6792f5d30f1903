import Verif.Printer.RunProps

/-!
# Property C92: what is reported of a job is what the printer answered
-/

namespace Verif.Printer

open Ipp Job Job.Spec Spec

/-! ## Specification -/

namespace Spec

/-- The status in an answer (RFC 8010, 3.1.1): two bytes after the two of the version. -/
def Status (data : Bytes) (n : Nat) : Prop := ∃ a b hi lo r, data = a :: b :: hi :: lo :: r ∧ n = hi.toNat * 256 + lo.toNat

/-- RFC 8011, B.1: 0x0000 to 0x00FF is success. -/
def Success (n : Nat) : Prop := n < 0x100

/-- The printer was reached and its answer says that all is well. -/
def Accepted (reply : Except Bytes Bytes) : Prop := ∃ data n, reply = .ok data ∧ Status data n ∧ Success n

/-- The text that an answer gives for its status: the status-message, or "unknown" where there is none. -/
def Says (data text : Bytes) : Prop :=
  ∃ m rest, decodeMsg data = .ok (m, rest) ∧
    ((∃ tag, KMap.get? m.opAttrs (ascii "status-message") = some (tag, .str text)) ∨
     KMap.get? m.opAttrs (ascii "status-message") = none ∧ text = ascii "unknown")

/-- Something that went wrong before the printer answered to the document: `sent` says whether a part of the document was sent. -/
def Earlier (sent : Prop) : RunError → Prop
  | .convert _ => True
  | .exception _ => True
  | .network _ => False
  | .printFailed _ => False
  | _ => ¬ sent

/-- A document is sent. -/
def SendsSome (es : List Event) : Prop := ∃ m, SendsDocument es m

end Spec

/-! ## Lemmas -/

theorem storeGroup_status (m : Msg) (t : UInt8) (a : Attrs) : (storeGroup m t a).opOrStatus = m.opOrStatus := by
  unfold storeGroup
  split
  · rfl
  · split
    · rfl
    · split <;> rfl

theorem decodeLoop_status (m : Msg) (cur : UInt8) (attrs : Attrs) (data : Bytes) :
    ∀ m' rest, decodeLoop m cur attrs data = .ok (m', rest) → m'.opOrStatus = m.opOrStatus := by
  fun_induction decodeLoop m cur attrs data with
  | case1 => intro m' rest h; cases h; rfl
  | case2 => intro m' rest h; cases h; exact storeGroup_status ..
  | case3 m cur attrs t r h1 h2 ih => intro m' rest h; rw [ih m' rest h]; exact storeGroup_status ..
  | case4 m cur attrs t r h1 name attr r' hc ih => exact ih
  | case5 => intro m' rest h; cases h
  | case6 => intro m' rest h; cases h
  | case7 => intro m' rest h; cases h

theorem status_of_decode {data rest : Bytes} {m : Msg} (h : decodeMsg data = .ok (m, rest)) : Status data m.opOrStatus.toNat := by
  unfold decodeMsg at h
  match data, h with
  | [], h => cases h
  | [_], h => cases h
  | [_, _], h => cases h
  | [_, _, _], h => cases h
  | a :: b :: hi :: lo :: r, h =>
    refine ⟨a, b, hi, lo, r, rfl, ?_⟩
    simp only [rd8, rd16, Outcome.bind_ok] at h
    obtain ⟨⟨_, r4⟩, _, h⟩ := Outcome.bind_eq_ok.mp h
    rw [decodeLoop_status _ _ _ _ _ _ h]
    have h1 := hi.toNat_lt
    have h2 := lo.toNat_lt
    show (UInt16.ofNat (hi.toNat * 256 + lo.toNat)).toNat = _
    rw [UInt16.toNat_ofNat']
    omega

theorem status_unique {data : Bytes} {n k : Nat} (h : Status data n) (h' : Status data k) : n = k := by
  obtain ⟨a, b, hi, lo, r, rfl, rfl⟩ := h
  obtain ⟨a', b', hi', lo', r', he, rfl⟩ := h'
  cases he
  rfl

theorem bind_steps {α β : Type} {x : Act α} {f : α → Act β} {b : β} (h : (x >>= f).out = .ok b) :
    ∃ a, x.out = .ok a ∧ (f a).out = .ok b ∧ (x >>= f).events = x.events ++ (f a).events := by
  change (Act.bind x f).out = .ok b at h
  show ∃ a, x.out = .ok a ∧ (f a).out = .ok b ∧ (Act.bind x f).events = x.events ++ (f a).events
  unfold Act.bind at h ⊢
  split at h
  · rename_i a ha
    exact ⟨a, ha, h, by simp only⟩
  · cases h
  · cases h
  · cases h

/-- The result is the printer's answer, or an earlier error. -/
def Answers (env : Env) (x : Act (Option RunError)) : Prop :=
  ∀ e, x.out = .ok e → (∃ y, e = some y ∧ Earlier (SendsSome x.events) y) ∨ (printResult env.showJobId env.printReply).out = .ok e

theorem doPrint_answers (env : Env) (id : Nat) (job : PrintJob) (f : ConvertFun) (m : Msg) : Answers env (doPrint env id job f m) := by
  intro e h
  unfold doPrint at h
  obtain ⟨_, _, h⟩ := bind_out h
  obtain ⟨_, _, h⟩ := bind_out h
  obtain ⟨_, _, h⟩ := bind_out h
  unfold convertAndAwait at h
  split at h
  split at h
  · exact .inr h
  · cases h; exact .inl ⟨_, rfl, trivial⟩
  · cases h
  · cases h
  · cases h

theorem answers_bind {env : Env} {α : Type} {x : Act α} {f : α → Act (Option RunError)} (hx : ¬ SendsSome x.events) (hf : ∀ a, x.out = .ok a → Answers env (f a)) :
    Answers env (x >>= f) := by
  intro e h
  obtain ⟨a, ha, h, hev⟩ := bind_steps h
  rcases hf a ha e h with ⟨y, he, hy⟩ | hr
  · refine .inl ⟨y, he, ?_⟩
    rw [hev]
    have : SendsSome (x.events ++ (f a).events) → SendsSome (f a).events := by
      rintro ⟨m, b, hb⟩
      rcases List.mem_append.mp hb with hb | hb
      · exact absurd ⟨m, b, hb⟩ hx
      · exact ⟨m, b, hb⟩
    cases y <;> first | exact hy | exact fun hs => hy (this hs)
  · exact .inr hr

theorem answers_some {env : Env} {e : RunError} (h : Earlier False e) : Answers env (pure (some e)) := by
  intro y hy
  cases hy
  refine .inl ⟨e, rfl, ?_⟩
  have : ¬ SendsSome (pure (some e) : Act (Option RunError)).events := by rintro ⟨m, b, hb⟩; cases hb
  cases e <;> first | exact h | exact this

theorem none_lift {α : Type} (o : Outcome α) : ¬ SendsSome (Act.lift o).events := by rintro ⟨m, b, hb⟩; cases hb

theorem transmit_answers (env : Env) (p : Printer) (job : PrintJob) (f : ConvertFun) (name : Bytes) (ops : List Int) :
    Answers env (transmit env p job f name ops) := by
  unfold transmit
  split
  · unfold createAndSend
    refine answers_bind (none_lift _) fun m _ => answers_bind ?_ fun r _ => ?_
    · unfold doRequest
      rintro ⟨m', b, hb⟩
      rcases lift_bind (encodeMsg env.reqId m) (fun bytes => Act.emit [.post m bytes] >>= fun _ => Act.lift (received env.createReply)) with ⟨bytes, _, he⟩ | hd
      · rw [he, emit_bind] at hb
        simp [Act.lift] at hb
      · rw [hd.1] at hb; cases hb
    · unfold createResult
      split
      · exact answers_some (fun h => h)
      · unfold afterCreate
        simp only
        split
        · refine answers_bind (none_lift _) fun jobId _ => ?_
          unfold sendDocument
          exact answers_bind (none_lift _) fun m _ => doPrint_answers _ _ _ _ _
        · exact answers_bind (none_lift _) fun s _ => answers_some (fun h => h)
  · unfold printJob
    exact answers_bind (none_lift _) fun m _ => doPrint_answers _ _ _ _ _

theorem catch_answers {env : Env} {x : Act (Option RunError)} (h : Answers env x) : Answers env (catchAll x) := by
  intro e he
  rw [catchAll_events]
  unfold catchAll at he
  split at he
  · cases he; exact .inl ⟨_, rfl, trivial⟩
  · exact h e he

theorem run_answers (env : Env) (p : Printer) (job : PrintJob) (input name : Bytes) (pages : Int) (hf : ¬ IsFile p) :
    Answers env (runJob env p job input name pages) := by
  unfold runJob runJobWith
  apply catch_answers
  unfold tryRun
  refine answers_bind (none_lift _) fun ops _ => answers_bind (none_lift _) fun r _ => ?_
  obtain ⟨e, j⟩ := r
  cases e with
  | some e => exact answers_some (fun h => h)
  | none =>
    simp only [afterFinalize]
    split
    · exact answers_some (fun h => h)
    · unfold deliver
      rw [if_neg (fun h => hf ((startsWith_file p).mp h))]
      exact transmit_answers _ _ _ _ _ _

theorem getString_says {data rest d s : Bytes} {m : Msg} (hm : decodeMsg data = .ok (m, rest)) (hd : d = ascii "unknown")
    (h : getString m.opAttrs (ascii "status-message") d = .ok s) : Says data s := by
  refine ⟨m, rest, hm, ?_⟩
  unfold getString Attrs.get at h
  cases hk : KMap.get? m.opAttrs (ascii "status-message") with
  | none =>
    rw [hk] at h
    cases h
    exact .inr ⟨rfl, hd⟩
  | some a =>
    rw [hk] at h
    obtain ⟨tag, v⟩ := a
    have := getAs_bind_str h rfl
    exact .inl ⟨tag, by rw [show v = .str s from this]⟩

/-- What the result is made of. -/
theorem result_cases {b : Bool} {reply : Except Bytes Bytes} {e : Option RunError} (h : (printResult b reply).out = .ok e) :
    (∃ t, reply = .error t ∧ e = some (.network t)) ∨
    ∃ data m rest, reply = .ok data ∧ decodeMsg data = .ok (m, rest) ∧
      ((m.opOrStatus < 0xff ∧ e = none) ∨ (¬ m.opOrStatus < 0xff ∧ ∃ s, e = some (.printFailed s) ∧ Says data s)) := by
  unfold printResult at h
  split at h
  · rename_i t
    cases h; exact .inl ⟨t, rfl, rfl⟩
  · rename_i data
    obtain ⟨⟨m, rest⟩, hm, h⟩ := bind_out h
    have hm : decodeMsg data = .ok (m, rest) := hm
    refine .inr ⟨data, m, rest, rfl, hm, ?_⟩
    simp only at h
    split at h
    · rename_i hs
      refine .inl ⟨hs, ?_⟩
      unfold showJob at h
      split at h
      · cases h; rfl
      · split at h
        · obtain ⟨_, _, h⟩ := bind_out h
          obtain ⟨_, _, h⟩ := bind_out h
          cases h; rfl
        · cases h; rfl
    · rename_i hs
      obtain ⟨s, hg, h⟩ := bind_out h
      cases h
      exact .inr ⟨hs, s, rfl, getString_says hm rfl hg⟩

/-! ## Theorems -/

/-- C92: a job is reported as printed only when the printer was reached and answered with success, to the document and before that to the creation of
the job where there is one. -/
theorem C92_success {env : Env} {p : Printer} {job : PrintJob} {input name : Bytes} {pages : Int} (hf : ¬ IsFile p)
    (h : (runJob env p job input name pages).out = .ok none) : Accepted env.printReply ∧ (TwoStage p job → Accepted env.createReply) := by
  constructor
  · rcases run_answers env p job input name pages hf none h with ⟨y, hy, _⟩ | hr
    · cases hy
    · rcases result_cases hr with ⟨t, _, ht⟩ | ⟨data, m, rest, hd, hm, ⟨hs, _⟩ | ⟨_, s, hs, _⟩⟩
      · cases ht
      · refine ⟨data, _, hd, status_of_decode hm, ?_⟩
        have : m.opOrStatus.toNat < 255 := hs
        unfold Success; omega
      · cases hs
  · intro ht
    obtain ⟨h1, h2⟩ := C52_two_stage env p job input name pages hf ht
    rcases h2 none ⟨h, by intro x hx; cases hx⟩ with ⟨_, ⟨x, hx⟩ | hx⟩ | ⟨c, t, _, hx, _⟩ | ⟨c, m, hr, hs⟩
    · cases hx
    · cases hx
    · cases hx
    · rcases h1 with h1 | ⟨j', c', _, _, ⟨h1, _⟩ | ⟨id, m', ⟨data, m'', rest, tag, a, as, hd, hm, hst, _⟩, _⟩⟩
      · rw [h1] at hr; cases hr
      · rw [h1] at hr; cases hr
      · refine ⟨data, _, hd, status_of_decode hm, ?_⟩
        have : m''.opOrStatus.toNat ≤ 255 := hst
        unfold Success; omega

/-- C92: when the printer refuses the document, this is reported, with the text that the printer gives for it, unless something went wrong before. -/
theorem C92_refused {env : Env} {p : Printer} {job : PrintJob} {input name : Bytes} {pages : Int} (hf : ¬ IsFile p) {data : Bytes} {n : Nat}
    (hr : env.printReply = .ok data) (hn : Status data n) (hs : ¬ Success n) {e : Option RunError}
    (h : (runJob env p job input name pages).out = .ok e) :
    ∃ y, e = some y ∧ (Earlier (SendsSome (runJob env p job input name pages).events) y ∨ ∃ s, y = .printFailed s ∧ Says data s) := by
  rcases run_answers env p job input name pages hf e h with ⟨y, hy, he⟩ | hx
  · exact ⟨y, hy, .inl he⟩
  · rcases result_cases hx with ⟨t, ht, _⟩ | ⟨data', m, rest, hd, hm, hc⟩
    · rw [hr] at ht; cases ht
    · rw [hr] at hd
      cases hd
      have hu := status_unique (status_of_decode hm) hn
      rcases hc with ⟨h1, _⟩ | ⟨_, s, rfl, hsay⟩
      · have : m.opOrStatus.toNat < 255 := h1
        unfold Success at hs; omega
      · exact ⟨_, rfl, .inr ⟨s, rfl, hsay⟩⟩

/-- C92: when the printer can not be reached, this is reported, unless something went wrong before. -/
theorem C92_unreachable {env : Env} {p : Printer} {job : PrintJob} {input name : Bytes} {pages : Int} (hf : ¬ IsFile p) {t : Bytes}
    (hr : env.printReply = .error t) {e : Option RunError} (h : (runJob env p job input name pages).out = .ok e) :
    ∃ y, e = some y ∧ (Earlier (SendsSome (runJob env p job input name pages).events) y ∨ y = .network t) := by
  rcases run_answers env p job input name pages hf e h with ⟨y, hy, he⟩ | hx
  · exact ⟨y, hy, .inl he⟩
  · rcases result_cases hx with ⟨t', ht, rfl⟩ | ⟨data', m, rest, hd, _⟩
    · rw [hr] at ht; cases ht
      exact ⟨_, rfl, .inr rfl⟩
    · rw [hr] at hd; cases hd

/-- The other direction of C92: when the printer answers with success then nothing is reported, unless something went wrong before. -/
def C92_accepted : Prop :=
  ∀ (env : Env) (p : Printer) (job : PrintJob) (input name : Bytes) (pages : Int) (e : Option RunError), ¬ IsFile p → Accepted env.printReply →
    (runJob env p job input name pages).out = .ok e →
    e = none ∨ ∃ y, e = some y ∧ Earlier (SendsSome (runJob env p job input name pages).events) y

/-- C92, success: for all statuses of success but the last, 0x00FF (`C92_accepted_false`). -/
theorem C92_accepted_partial {env : Env} {p : Printer} {job : PrintJob} {input name : Bytes} {pages : Int} (hf : ¬ IsFile p) {data : Bytes} {n : Nat}
    (hr : env.printReply = .ok data) (hn : Status data n) (hs : Success n) (h255 : n ≠ 0xff) {e : Option RunError}
    (h : (runJob env p job input name pages).out = .ok e) :
    e = none ∨ ∃ y, e = some y ∧ Earlier (SendsSome (runJob env p job input name pages).events) y := by
  rcases run_answers env p job input name pages hf e h with ⟨y, hy, he⟩ | hx
  · exact .inr ⟨y, hy, he⟩
  · rcases result_cases hx with ⟨t, ht, _⟩ | ⟨data', m, rest, hd, hm, hc⟩
    · rw [hr] at ht; cases ht
    · rw [hr] at hd
      cases hd
      have hu := status_unique (status_of_decode hm) hn
      rcases hc with ⟨_, rfl⟩ | ⟨h1, _⟩
      · exact .inl rfl
      · exfalso
        apply h1
        show m.opOrStatus.toNat < 255
        unfold Success at hs; omega

/-- A printer that answers to the document with the given status, and with a text for it. -/
def answering (hi lo : UInt8) : Env :=
  { exampleEnv with printReply := .ok ([1, 1, hi, lo, 0, 0, 0, 2, 1, 0x41, 0, 14] ++ ascii "status-message" ++ [0, 4] ++ ascii "busy" ++ [3]) }

/-- C92 is false of the status 0x00FF: a job that was accepted is reported as failed. (To the creation of a job the same status is success.) -/
theorem C92_accepted_false : ¬ C92_accepted := by
  intro h
  have h := h (answering 0 255) examplePrinter2 (PrintJob.new examplePrinter2.attrs []) pdf (ascii "a.pdf") 1 (some (.printFailed (ascii "busy")))
    (by unfold IsFile; decide +kernel) ⟨_, 255, rfl, ⟨1, 1, 0, 255, _, rfl, rfl⟩, by unfold Success; omega⟩ (by decide +kernel)
  rcases h with h | ⟨y, hy, he⟩
  · cases h
  · cases hy; exact he

/-- Accepted with 0, refused with 0x0507 (busy), after the document was sent. -/
example : ¬ IsFile examplePrinter2 ∧ TwoStage examplePrinter2 (PrintJob.new examplePrinter2.attrs []) ∧
    (runJob (answering 0 0) examplePrinter2 (PrintJob.new examplePrinter2.attrs []) pdf (ascii "a.pdf") 1).out = .ok none ∧
    (runJob (answering 5 7) examplePrinter2 (PrintJob.new examplePrinter2.attrs []) pdf (ascii "a.pdf") 1).out = .ok (some (.printFailed (ascii "busy"))) ∧
    (runJob { exampleEnv with printReply := .error (ascii "Timeout was reached") } examplePrinter2 (PrintJob.new examplePrinter2.attrs []) pdf (ascii "a.pdf") 1).out =
      .ok (some (.network (ascii "Timeout was reached"))) := by
  have h : KMap.get? examplePrinter2.attrs (ascii "operations-supported") = some (0x23, .set [.int 2, .int 5, .int 6]) := by decide +kernel
  refine ⟨by unfold IsFile; decide +kernel, ⟨rfl, ?_, ?_⟩, by decide +kernel, by decide +kernel, by decide +kernel⟩
  · unfold Supports; rw [h]; simp [Ipp.Spec.Declares]
  · unfold Supports; rw [h]; simp [Ipp.Spec.Declares]

end Verif.Printer
