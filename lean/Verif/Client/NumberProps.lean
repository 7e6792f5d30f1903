import Verif.Client.SentProps

/-! # The numbers and the versions of the requests (C109) -/

namespace Verif.Client

open Ipp Ipp.Spec Job Job.Spec Printer Printer.Spec Tools Tools.Spec
open Verif.Client.Spec

namespace Spec

/-- The bytes of the request in an event. -/
def wireOf : Event → Option Bytes
  | .post _ b => some b
  | .openStream _ b => some b
  | _ => none

/-- The requests as they go over the wire, in order; of the one with the document what comes before it. -/
def wire (es : List Event) : List Bytes := es.filterMap wireOf

/-- RFC 8010, 3.1.1: a request starts with the version, the operation and its number. -/
structure StartsLike (b : Bytes) (maj min : UInt8) (number : Nat) : Prop where
  long : 8 ≤ b.length
  major : b[0]? = some maj
  minor : b[1]? = some min
  number : ((b.drop 4).take 4).foldl (fun n d => 256 * n + d.toNat) 0 = number

/-- The version of the requests to a printer: 2.0 if it says that it knows this one, otherwise 1.1. -/
def VersionFor (p : Printer) (maj min : UInt8) : Prop :=
  (Declares (KMap.get? p.attrs (ascii "ipp-versions-supported")) (.str (ascii "2.0")) ∧ maj = 2 ∧ min = 0) ∨
  (¬ Declares (KMap.get? p.attrs (ascii "ipp-versions-supported")) (.str (ascii "2.0")) ∧ maj = 1 ∧ min = 1)

end Spec

/-! ## Proofs -/

/-- The requests `bs` have the numbers from `n` on, and versions as `v` says. -/
def Counted (v : UInt8 → UInt8 → Prop) : Nat → List Bytes → Prop
  | _, [] => True
  | n, b :: bs => (∃ maj min, v maj min ∧ ∃ op rest, b = headerBytes maj min op n ++ rest) ∧ Counted v (nextReqId n) bs

theorem Counted.mono {v v' : UInt8 → UInt8 → Prop} (h : ∀ a b, v a b → v' a b) : ∀ {n : Nat} {bs : List Bytes}, Counted v n bs → Counted v' n bs
  | _, [], _ => trivial
  | _, _ :: _, ⟨⟨maj, min, h1, h2⟩, h3⟩ => ⟨⟨maj, min, h _ _ h1, h2⟩, Counted.mono h h3⟩

theorem Counted.get {v : UInt8 → UInt8 → Prop} {bs : List Bytes} : ∀ {n : Nat}, n < 4294967296 → Counted v n bs → ∀ {i : Nat} {b : Bytes}, bs[i]? = some b →
    ∃ maj min, v maj min ∧ ∃ op rest, b = headerBytes maj min op ((n + i) % 4294967296) ++ rest := by
  induction bs with
  | nil => intro n _ _ i b hb; simp at hb
  | cons a bs ih =>
    intro n hn h i b hb
    obtain ⟨⟨maj, min, h1, op, rest, h2⟩, h3⟩ := h
    cases i with
    | zero =>
      simp only [List.getElem?_cons_zero, Option.some.injEq] at hb
      subst hb
      exact ⟨maj, min, h1, op, rest, by rw [h2, Nat.add_zero, Nat.mod_eq_of_lt hn]⟩
    | succ i =>
      obtain ⟨maj, min, h4, op, rest, h5⟩ := ih (Nat.mod_lt _ (by decide)) h3 (by simpa using hb)
      refine ⟨maj, min, h4, op, rest, ?_⟩
      rw [h5]
      rw [show ((n + 1) % 4294967296 + i) % 4294967296 = (n + (i + 1)) % 4294967296 by omega]

theorem starts_of {b : Bytes} {maj min : UInt8} {op : UInt16} {n : Nat} {rest : Bytes} (h : b = headerBytes maj min op n ++ rest) (hn : n < 4294967296) :
    StartsLike b maj min n := by
  subst h
  refine ⟨?_, ?_, ?_, ?_⟩
  · simp [headerBytes, be16, be32]
  · simp [headerBytes]
  · simp [headerBytes]
  · simp [headerBytes, be16, be32]
    omega

theorem encodeMsg_starts {n : Nat} {m : Msg} {bytes : Bytes} (h : encodeMsg n m = .ok bytes) :
    ∃ rest, bytes = headerBytes m.majVsn m.minVsn m.opOrStatus n ++ rest := by
  unfold encodeMsg at h
  simp only [Outcome.bind_eq_ok] at h
  obtain ⟨a, -, b, -, c, -, d, -, h⟩ := h
  cases h
  exact ⟨[tOpAttrs] ++ (a.1 ++ (b ++ (c ++ (d ++ [tEndAttrs])))), by simp only [headerBytes, List.append_assoc]⟩

theorem wire_append (a b : List Event) : wire (a ++ b) = wire a ++ wire b := List.filterMap_append ..

/-- At most `k` requests, with the numbers from `n` on. -/
structure Counts {α : Type} (x : Act α) (v : UInt8 → UInt8 → Prop) (n k : Nat) : Prop where
  counted : Counted v n (wire x.events)
  few : (wire x.events).length ≤ k

theorem Counts.none {α : Type} {x : Act α} {v : UInt8 → UInt8 → Prop} {n k : Nat} (h : wire x.events = []) : Counts x v n k :=
  ⟨by rw [h]; trivial, by rw [h]; exact Nat.zero_le _⟩

theorem Counts.more {α : Type} {x : Act α} {v : UInt8 → UInt8 → Prop} {n k k' : Nat} (h : Counts x v n k) (hk : k ≤ k') : Counts x v n k' :=
  ⟨h.counted, Nat.le_trans h.few hk⟩

theorem Counts.mono {α : Type} {x : Act α} {v v' : UInt8 → UInt8 → Prop} {n k : Nat} (h : Counts x v n k) (hv : ∀ a b, v a b → v' a b) : Counts x v' n k :=
  ⟨h.counted.mono hv, h.few⟩

/-- Requests first, then nothing but events without requests. -/
theorem Counts.then {α β : Type} {x : Act α} {f : α → Act β} {v : UInt8 → UInt8 → Prop} {n k : Nat} (h : Counts x v n k)
    (hf : ∀ a, x.out = .ok a → wire (f a).events = []) : Counts (x >>= f) v n k := by
  have : wire (x >>= f).events = wire x.events := by
    show wire (Act.bind x f).events = _
    unfold Act.bind
    cases ho : x.out with
    | ok a => simp only [wire_append, hf a ho, List.append_nil]
    | _ => rfl
  exact ⟨by rw [this]; exact h.counted, by rw [this]; exact h.few⟩

theorem Counts.lift {α β : Type} {o : Outcome α} {f : α → Act β} {v : UInt8 → UInt8 → Prop} {n k : Nat} (h : ∀ a, o = .ok a → Counts (f a) v n k) :
    Counts (Act.lift o >>= f) v n k := by
  cases o with
  | ok a => exact ⟨by simpa [wire, Act.lift, Bind.bind, Act.bind] using (h a rfl).counted, by simpa [wire, Act.lift, Bind.bind, Act.bind] using (h a rfl).few⟩
  | _ => exact .none rfl

theorem Counts.request {α : Type} {m : Msg} {reply : Except Bytes Bytes} {f : Except Bytes Msg → Act α} {v : UInt8 → UInt8 → Prop} {n k : Nat}
    (hv : v m.majVsn m.minVsn) (h : ∀ r, Counts (f r) v (nextReqId n) k) : Counts (doRequest n m reply >>= f) v n (k + 1) := by
  unfold doRequest
  cases he : encodeMsg n m with
  | ok bytes =>
    obtain ⟨rest, hr⟩ := encodeMsg_starts he
    cases hq : received reply with
    | ok r =>
      have hw : wire (((do let bytes ← Act.lift (.ok bytes); Act.emit [.post m bytes]; Act.lift (.ok r) : Act (Except Bytes Msg)) >>= f)).events =
          bytes :: wire (f r).events := rfl
      refine ⟨?_, ?_⟩
      · rw [hw]
        exact ⟨⟨_, _, hv, _, rest, hr⟩, (h r).counted⟩
      · rw [hw]
        exact Nat.succ_le_succ (h r).few
    | _ => exact ⟨⟨⟨_, _, hv, _, rest, hr⟩, trivial⟩, Nat.succ_le_succ (Nat.zero_le _)⟩
  | _ => exact .none rfl

theorem wire_blocks (bs : List Bytes) : wire (blockEvents bs) = [] := by
  unfold blockEvents wire
  rw [List.filterMap_map, List.filterMap_eq_nil_iff]
  intro a _
  rfl

theorem wire_result (b : Bool) (r : Except Bytes Bytes) : wire (printResult b r).events = [] := by
  rcases printResult_events b r with h | ⟨id, h⟩ <;> rw [h] <;> rfl

theorem wire_await (env : Env) (f : ConvertFun) (job : PrintJob) : wire (convertAndAwait env f job).events = [] := by
  unfold convertAndAwait
  simp only
  split <;> simp only [wire_append, wire_blocks, wire_result, List.nil_append, List.append_nil] <;> rfl

theorem wire_compression (job : PrintJob) : wire (useCompression job).events = [] := by
  unfold useCompression
  split
  · unfold compressionEvents Act.emit
    split
    · rfl
    · split <;> rfl
  · rfl
  · rfl
  · rfl

theorem counts_doPrint {env : Env} {n : Nat} {job : PrintJob} {f : ConvertFun} {m : Msg} {v : UInt8 → UInt8 → Prop} (hv : v m.majVsn m.minVsn) :
    Counts (doPrint env n job f m) v n 1 := by
  unfold doPrint
  cases he : encodeMsg n m with
  | ok bytes =>
    obtain ⟨rest, hr⟩ := encodeMsg_starts he
    have hw : wire ((useCompression job >>= fun _ => convertAndAwait env f job).events) = [] := by
      show wire (Act.bind _ _).events = []
      unfold Act.bind
      split
      · simp only [wire_append, wire_compression, wire_await, List.append_nil]
      all_goals exact wire_compression job
    have hw' : wire (((do let bytes ← Act.lift (.ok bytes); Act.emit [.openStream m bytes]; useCompression job; convertAndAwait env f job : Act (Option RunError)))).events =
        bytes :: wire ((useCompression job >>= fun _ => convertAndAwait env f job).events) := rfl
    refine ⟨?_, ?_⟩
    · rw [hw', hw]
      exact ⟨⟨_, _, hv, _, rest, hr⟩, trivial⟩
    · rw [hw', hw]
      exact Nat.le_refl 1
  | _ => exact .none rfl

theorem mkMsg_version {p : Printer} {op : UInt16} {a b c : Attrs} {m : Msg} (h : mkMsg p op a b c = .ok m) : VersionFor p m.majVsn m.minVsn := by
  unfold mkMsg at h
  rw [Outcome.bind_eq_ok] at h
  obtain ⟨l, hl, h⟩ := h
  cases h
  have hm := mem_strList hl (ascii "2.0")
  unfold VersionFor
  rw [← hm]
  by_cases hc : ascii "2.0" ∈ l
  · exact .inl ⟨hc, by simp [hc], by simp [hc]⟩
  · exact .inr ⟨hc, by simp [hc], by simp [hc]⟩

theorem counts_transmit (env : Env) (p : Printer) (job : PrintJob) (f : ConvertFun) (fileName : Bytes) (ops : List Int) :
    Counts (transmit env p job f fileName ops) (VersionFor p) env.reqId 2 := by
  unfold transmit
  split
  · unfold createAndSend
    refine .lift fun m hm => .request (mkMsg_version hm) fun r => ?_
    cases r with
    | error e => exact .none rfl
    | ok resp =>
      unfold createResult afterCreate
      simp only
      split
      · refine .lift fun id _ => ?_
        unfold sendDocument
        exact .lift fun m hm => counts_doPrint (mkMsg_version hm)
      · exact .lift fun s _ => .none rfl
  · unfold printJob
    exact .lift fun m hm => (counts_doPrint (mkMsg_version hm)).more (by decide)

theorem wire_toFile (env : Env) (job : PrintJob) (f : ConvertFun) (fileName : Bytes) : wire (printToFile env job f fileName).events = [] := by
  have hb : ∀ (bs : List Bytes), wire (bs.map .file) = [] := fun bs => by
    unfold wire
    rw [List.filterMap_map, List.filterMap_eq_nil_iff]
    intro a _
    rfl
  unfold printToFile
  cases defaultExtension job.targetFormat with
  | ok ext =>
    show wire (fileEvents _ (env.convert f job)).events = []
    obtain ⟨bs, o⟩ := env.convert f job
    unfold fileEvents
    split
    · simp only [wire_append, hb, List.nil_append]
      rfl
    all_goals exact hb _
  | _ => rfl

theorem counts_run (env : Env) (p : Printer) (job : PrintJob) (input fileName : Bytes) (pages : Int) :
    Counts (runJob env p job input fileName pages) (VersionFor p) env.reqId 2 := by
  have h : Counts (tryRun env p job.copy input fileName pages) (VersionFor p) env.reqId 2 := by
    unfold tryRun
    refine .lift fun ops _ => .lift fun r _ => ?_
    obtain ⟨e, j⟩ := r
    cases e with
    | some e => exact .none rfl
    | none =>
      show Counts (match getConvertFun env.pipelines input j.targetFormat with
        | none => pure (some .noConversion)
        | some f => deliver env p j f fileName ops) _ _ _
      split
      · exact .none rfl
      · unfold deliver
        split
        · exact .none (wire_toFile ..)
        · exact counts_transmit ..
  unfold runJob runJobWith catchAll
  split
  · exact ⟨h.counted, h.few⟩
  · exact h

theorem counts_command (w : World) (p : Printer) (sub : Bytes) (r : Result) : Counts (command w p sub r) (VersionFor p) (nextId w p) 2 := by
  unfold command
  split
  · unfold infoCommand
    exact .lift fun _ _ => .none rfl
  split
  · unfold identifyCommand identify
    refine Counts.then ?_ fun _ _ => rfl
    split
    · exact .lift fun m hm => (Counts.request (k := 0) (mkMsg_version hm) fun _ => .none rfl).more (by decide)
    · exact .none rfl
  split
  · exact .none rfl
  split
  · unfold setAttrsCommand
    split
    · exact .none rfl
    · refine Counts.then ?_ fun _ _ => rfl
      unfold setAttributes
      split
      · unfold sendAttributes
        exact .lift fun m hm => (Counts.request (k := 0) (mkMsg_version hm) fun _ => .none rfl).more (by decide)
      all_goals exact .none rfl
  split
  · unfold getJobsCommand getJobs
    refine Counts.then ?_ fun a _ => ?_
    · exact .lift fun m hm => (Counts.request (k := 0) (mkMsg_version hm) fun _ => .none rfl).more (by decide)
    · split <;> rfl
  split
  · unfold cancelCommand
    split
    · exact .none rfl
    · refine Counts.then ?_ fun _ _ => rfl
      unfold cancelJob
      exact .lift fun m hm => (Counts.request (k := 0) (mkMsg_version hm) fun _ => .none rfl).more (by decide)
  split
  · unfold printCommand
    refine .lift fun j _ => ?_
    unfold launch
    split
    · exact .none rfl
    · split
      · exact .none rfl
      · unfold submit
        refine .lift fun s _ => ?_
        obtain ⟨g, st⟩ := s
        simp only
        split
        · exact Counts.then (counts_run ..) fun _ _ => rfl
        · exact .none rfl
  · exact .none rfl

/-- The version of a request to a printer of which nothing is known. -/
theorem version_unknown {addr user : Bytes} {maj min : UInt8} (h : VersionFor { addr := addr, user := user, attrs := [] } maj min) : maj = 1 ∧ min = 1 := by
  rcases h with ⟨h, -⟩ | ⟨-, h⟩
  · simp [KMap.get?, Declares] at h
  · exact h

theorem counts_construct (files : Files) (n : Nat) (addr user : Bytes) (reply : Except Bytes Bytes) :
    Counts (construct files n addr user reply) (fun maj min => maj = 1 ∧ min = 1) n 1 := by
  unfold construct refresh
  split
  · exact .none rfl
  · refine .lift fun m hm => (Counts.request (k := 0) (version_unknown (mkMsg_version hm)) fun r => ?_)
    refine .lift fun a _ => .none rfl

theorem lift_ok_bind {α β : Type} (a : α) (f : α → Act β) : (Act.lift (.ok a) >>= f) = f a := rfl

theorem construct_sends {files : Files} {n : Nat} {addr user : Bytes} {reply : Except Bytes Bytes} {e : Option Bytes} {p : Printer}
    (h : (construct files n addr user reply).out = .ok (e, p)) :
    p.addr = addr ∧ (wire (construct files n addr user reply).events).length = if Text.startsWith addr (ascii "file://") then 0 else 1 := by
  unfold construct refresh at h ⊢
  simp only at h ⊢
  by_cases hf : Text.startsWith addr (ascii "file://") = true
  · simp only [hf, if_true] at h ⊢
    refine ⟨?_, rfl⟩
    unfold refreshFromFile at h
    cases hr : files.read (addr.drop 7) with
    | none =>
      simp only [hr, Act.lift] at h
      cases h
      rfl
    | some text =>
      simp only [hr, Act.lift] at h
      rw [Outcome.bind_eq_ok] at h
      obtain ⟨x, -, h⟩ := h
      split at h
      · cases h; rfl
      · rw [Outcome.bind_eq_ok] at h
        obtain ⟨a, -, h⟩ := h
        cases h; rfl
  · rw [if_neg hf] at h ⊢
    rw [if_neg hf]
    cases hm : mkMsg { addr := addr, user := user, attrs := [] } 0x000b [] [] [] with
    | ok m =>
      rw [hm, lift_ok_bind] at h
      rw [lift_ok_bind]
      unfold doRequest at h ⊢
      cases he : encodeMsg n m with
      | ok bytes =>
        rw [he] at h
        cases hq : received reply with
        | ok r =>
          rw [hq] at h
          cases ha : applyOverrides files (replyAttrs r) with
          | ok a =>
            have h' : (Act.lift (applyOverrides files (replyAttrs r)) >>= fun a => (pure (errorOf r, ({ addr := addr, user := user, attrs := a } : Printer)) : Act _)).out =
              .ok (e, p) := h
            rw [ha] at h'
            cases h'
            refine ⟨rfl, ?_⟩
            show (wire ([.post m bytes] ++ (Act.lift (applyOverrides files (replyAttrs r)) >>= fun a =>
              (pure (errorOf r, ({ addr := addr, user := user, attrs := a } : Printer)) : Act _)).events)).length = 1
            rw [ha]
            rfl
          | _ =>
            have h' : (Act.lift (applyOverrides files (replyAttrs r)) >>= fun a => (pure (errorOf r, ({ addr := addr, user := user, attrs := a } : Printer)) : Act _)).out =
              .ok (e, p) := h
            rw [ha] at h'
            cases h'
        | _ => rw [hq] at h; cases h
      | _ => rw [he] at h; cases h
    | _ => rw [hm] at h; cases h

theorem Counted.append {v : UInt8 → UInt8 → Prop} {bs : List Bytes} : ∀ {a : List Bytes} {n n' : Nat}, Counted v n a →
    n' = a.foldl (fun n _ => nextReqId n) n → Counted v n' bs → Counted v n (a ++ bs)
  | [], _, _, _, h, hb => by cases h; exact hb
  | _ :: _, _, _, ⟨h1, h2⟩, h, hb => ⟨h1, Counted.append h2 h hb⟩

/-- One of the two versions of IPP. -/
theorem counts_main (w : World) (args : List Bytes) : Counts (main w args) (fun maj min => maj = 1 ∧ min = 1 ∨ maj = 2 ∧ min = 0) w.env.reqId 3 := by
  unfold main
  split
  · exact .none rfl
  split
  · exact .none rfl
  split
  · unfold withPrinter
    have hc := (counts_construct w.files w.env.reqId (‹Result›.positional.getD 0 []) w.user w.attrsReply)
    have hs := @construct_sends w.files w.env.reqId (‹Result›.positional.getD 0 []) w.user w.attrsReply
    generalize construct w.files w.env.reqId (‹Result›.positional.getD 0 []) w.user w.attrsReply = c at hc hs ⊢
    have hc' := hc.mono (v' := fun maj min => maj = 1 ∧ min = 1 ∨ maj = 2 ∧ min = 0) fun _ _ h => .inl h
    obtain ⟨es, o⟩ := c
    cases o with
    | ok x =>
      obtain ⟨e, p⟩ := x
      cases e with
      | some e => exact Counts.then (hc'.more (by decide)) fun a ha => by cases ha; rfl
      | none =>
        obtain ⟨hp, hl⟩ := hs rfl
        rename_i sub r _ _ _
        have hk : Counts (command w p sub r) (fun maj min => maj = 1 ∧ min = 1 ∨ maj = 2 ∧ min = 0) (nextId w p) 2 :=
          (counts_command w p sub r).mono fun a b h => h.elim (fun h => .inr h.2) fun h => .inl h.2
        have hw : wire ((⟨es, .ok (none, p)⟩ : Act (Option Bytes × Printer)) >>= fun x => match x with
            | (e, p) => match e with | some _ => pure (failed w) | none => command w p sub r).events = wire es ++ wire (command w p sub r).events :=
          wire_append _ _
        refine ⟨?_, ?_⟩
        · refine cast (congrArg _ hw.symm) (Counted.append hc'.counted ?_ hk.counted)
          unfold nextId
          rw [hp]
          simp only at hl ⊢
          generalize wire es = l at hl
          split
          · rw [if_pos (by assumption), List.length_eq_zero_iff] at hl
            subst hl; rfl
          · rw [if_neg (by assumption), List.length_eq_one_iff] at hl
            obtain ⟨a, hl⟩ := hl
            subst hl; rfl
        · refine cast (congrArg (fun l => List.length l ≤ 3) hw.symm) ?_
          rw [List.length_append]
          have := hc.few
          have := hk.few
          simp only at *
          omega
    | _ => exact ⟨hc'.counted, Nat.le_trans hc'.few (by decide)⟩
  · exact .none rfl

/-- **C109.** Whatever the command line, the files, the settings and the printer's replies: one use of ippclient sends no more than three requests; the first has the number 1, the second 2, the
third 3; and each is of version 1.1 or 2.0. -/
theorem C109_numbered (w : World) (args : List Bytes) (h1 : w.env.reqId = 1) :
    (wire (main w args).events).length ≤ 3 ∧
    ∀ i b, (wire (main w args).events)[i]? = some b → StartsLike b 1 1 (i + 1) ∨ StartsLike b 2 0 (i + 1) := by
  have h := counts_main w args
  refine ⟨h.few, fun i b hb => ?_⟩
  have hi : i < 3 := Nat.lt_of_lt_of_le (List.getElem?_eq_some_iff.1 hb).1 h.few
  obtain ⟨maj, min, hv, op, rest, he⟩ := h.counted.get (by omega) hb
  rw [h1, show (1 + i) % 4294967296 = i + 1 by omega] at he
  have hs := starts_of he (by omega)
  rcases hv with ⟨rfl, rfl⟩ | ⟨rfl, rfl⟩
  · exact .inl hs
  · exact .inr hs

theorem Counted.mem {v : UInt8 → UInt8 → Prop} {bs : List Bytes} {n : Nat} (h : Counted v n bs) {b : Bytes} (hb : b ∈ bs) :
    ∃ maj min, v maj min ∧ b[0]? = some maj ∧ b[1]? = some min := by
  induction bs generalizing n with
  | nil => cases hb
  | cons a bs ih =>
    obtain ⟨⟨maj, min, hv, op, rest, he⟩, h2⟩ := h
    rcases List.mem_cons.1 hb with rfl | hb
    · exact ⟨maj, min, hv, by rw [he]; rfl, by rw [he]; rfl⟩
    · exact ih h2 hb

/-- **C109.** The request for the attributes is of version 1.1; those that a sub-command sends afterwards are of version 2.0 if the printer said that it knows it, else 1.1. -/
theorem C109_version (w : World) :
    (∀ addr, ∀ b ∈ wire (construct w.files w.env.reqId addr w.user w.attrsReply).events, b[0]? = some 1 ∧ b[1]? = some 1) ∧
    ∀ p sub r, ∀ b ∈ wire (command w p sub r).events, ∃ maj min, VersionFor p maj min ∧ b[0]? = some maj ∧ b[1]? = some min := by
  refine ⟨fun addr b hb => ?_, fun p sub r b hb => (counts_command w p sub r).counted.mem hb⟩
  obtain ⟨maj, min, ⟨rfl, rfl⟩, h⟩ := (counts_construct w.files w.env.reqId addr w.user w.attrsReply).counted.mem hb
  exact h

/-- A printer that knows IPP 2.0 and jobs without a document, as it answers. -/
def knows2 : World :=
  { world with
    env := exampleEnv
    attrsReply := match encodeMsg 1 { opOrStatus := 0, printerAttrs := (ascii "ipp-versions-supported", (0x44, .set [.str (ascii "1.1"), .str (ascii "2.0")])) :: examplePrinter2.attrs } with
      | .ok b => .ok b
      | _ => .error [] }

/-- It gets three requests, the last two in its version. -/
example : knows2.env.reqId = 1 ∧ (wire (main knows2 [ascii "print", ascii "ipp://p", ascii "a.pdf"]).events).map (List.take 8) =
    [[1, 1, 0, 0x0b, 0, 0, 0, 1], [2, 0, 0, 5, 0, 0, 0, 2], [2, 0, 0, 6, 0, 0, 0, 3]] := by
  decide +kernel

end Verif.Client
