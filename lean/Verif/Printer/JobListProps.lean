import Verif.Printer.ManageProps

/-!
# Properties C69 and C70: what is reported of a request, and the list of jobs
-/

namespace Verif.Printer

open Ipp Ipp.Spec Job Job.Spec Spec

namespace Spec

/-- The printer answers with an error: a status of more than 0xff (RFC 8011, 4.1.6 and B.1). -/
def Refused (reply : Except Bytes Bytes) : Prop :=
  ∃ data m rest, reply = .ok data ∧ decodeMsg data = .ok (m, rest) ∧ 0xff < m.opOrStatus

end Spec

/-- What the requests that nothing else precedes do. -/
theorem request_then {α : Type} {p : Printer} (hf : Fits p) (op : UInt16) {extra : Attrs} (he : GroupOk extra)
    (hd : ∀ n, KMap.get? extra n = none ∨ KMap.get? (common p) n = none) (reqId : Nat) (reply : Except Bytes Bytes)
    (f : Except Bytes Msg → Outcome α) :
    ∃ m bytes, IsRequest p op extra [] m ∧ decodeMsg bytes = .ok (withoutEmptyJobs m, []) ∧
      ((Act.lift (mkMsg p op extra [] []) >>= fun m => doRequest reqId m reply >>= fun r => Act.lift (f r)) : Act α) =
        ⟨[.post m bytes], received reply >>= f⟩ := by
  obtain ⟨m, bytes, h1, h2, h3, h4⟩ := request_ok hf op he groupOk_nil hd reqId
  refine ⟨m, bytes, h2, h4, ?_⟩
  rw [h1, lift_bind_ok]
  exact doRequest_then h3 reply f

theorem cancelJob_eq {p : Printer} (hf : Fits p) (reqId : Nat) (id : Int) (hid : InInt32 id) (reply : Except Bytes Bytes) :
    ∃ m bytes, IsRequest p 8 [(ascii "job-id", (0x21, .int id))] [] m ∧ decodeMsg bytes = .ok (withoutEmptyJobs m, []) ∧
      cancelJob reqId p id reply = ⟨[.post m bytes], received reply >>= cancelResult⟩ := by
  refine request_then hf 8 ⟨by unfold KMap.Sorted; simp, fun n a h => ?_⟩ (fun n => ?_) reqId reply cancelResult
  · simp only [List.mem_cons, List.not_mem_nil, or_false, Prod.mk.injEq] at h
    obtain ⟨rfl, rfl⟩ := h
    exact ⟨by decide, by decide, by simp only [WellTyped, PlainOk]; exact ⟨by decide, hid⟩⟩
  · by_cases hn : n = ascii "job-id"
    · right; subst hn; rfl
    · left; simp [KMap.get?, hn]

theorem getJobs_eq {p : Printer} (hf : Fits p) (reqId : Nat) (reply : Except Bytes Bytes) :
    ∃ m bytes, IsRequest p 10 [(ascii "requested-attributes", (0x44, .str (ascii "all")))] [] m ∧
      decodeMsg bytes = .ok (withoutEmptyJobs m, []) ∧ getJobs reqId p reply = ⟨[.post m bytes], received reply >>= listJobs⟩ := by
  refine request_then hf 10 ⟨by unfold KMap.Sorted; simp, fun n a h => ?_⟩ (fun n => ?_) reqId reply listJobs
  · simp only [List.mem_cons, List.not_mem_nil, or_false, Prod.mk.injEq] at h
    obtain ⟨rfl, rfl⟩ := h
    exact ⟨by decide, by decide, by simp only [WellTyped, PlainOk]; decide⟩
  · by_cases hn : n = ascii "requested-attributes"
    · right; subst hn; rfl
    · left; simp [KMap.get?, hn]

theorem identify_eq {p : Printer} (hf : Fits p) (hi : KMap.get? p.attrs (ascii "identify-actions-supported") ≠ none) (reqId : Nat)
    (reply : Except Bytes Bytes) :
    ∃ m bytes, IsRequest p 0x3c [] [] m ∧ decodeMsg bytes = .ok (withoutEmptyJobs m, []) ∧
      identify reqId p reply = ⟨[.post m bytes], received reply >>= fun r => pure (errorOf r)⟩ := by
  obtain ⟨m, bytes, h1, h2, h3⟩ := request_then hf 0x3c groupOk_nil noNames reqId reply (fun r => pure (errorOf r))
  refine ⟨m, bytes, h1, h2, ?_⟩
  unfold identify
  rw [if_pos (by unfold KMap.has; exact Option.isSome_iff_ne_none.mpr hi)]
  exact h3

theorem received_response {gs : List (UInt8 × List (Bytes × Attr))} (h : ∀ g ∈ gs, RecvOk g) (maj min : UInt8) (status : UInt16) (id : Nat) :
    ∃ m, received (.ok (response maj min status id gs)) = .ok (.ok m) ∧ m.opOrStatus = status ∧
      All2 Reports m.jobAttrs (ofTag 2 gs) ∧ Reports m.opAttrs (lastOfTag 1 gs) ∧ Reports m.printerAttrs (lastOfTag 4 gs) := by
  obtain ⟨m, h1, _, _, h2, h3, h4, h5⟩ := C24_groups_partial gs h maj min status id [] (by simp)
  refine ⟨m, ?_, h2, h3, h4, h5⟩
  unfold received response
  simp only [h1]

theorem reports_given {d : Attrs} {g : List (Bytes × Attr)} (h : Reports d g) (n : Bytes) :
    (KMap.get? d n).map Prod.snd = given g n := by
  rw [h.2 n]
  unfold given
  cases g.find? (fun e => decide (e.1 = n)) <;> rfl

/-- Reading an integer or a text of a group. -/
theorem getInteger_given {d : Attrs} {g : List (Bytes × Attr)} (h : Reports d g) (n : Bytes)
    (ht : ∀ v, given g n = some v → ∃ i, v = .int i) :
    ∃ i, getInteger d n = .ok i ∧ (given g n).getD (.int 0) = .int i := by
  have hg := reports_given h n
  unfold getInteger Attrs.get
  cases hd : KMap.get? d n with
  | none => rw [hd] at hg; rw [← hg]; exact ⟨0, rfl, rfl⟩
  | some a =>
    rw [hd] at hg
    obtain ⟨tag, v⟩ := a
    obtain ⟨i, rfl⟩ := ht v hg.symm
    exact ⟨i, rfl, by rw [← hg]; rfl⟩

theorem getString_given {d : Attrs} {g : List (Bytes × Attr)} (h : Reports d g) (n : Bytes) (df : Bytes)
    (ht : ∀ v, given g n = some v → ∃ i, v = .str i) :
    ∃ i, getString d n df = .ok i ∧ (given g n).getD (.str df) = .str i := by
  have hg := reports_given h n
  unfold getString Attrs.get
  cases hd : KMap.get? d n with
  | none => rw [hd] at hg; rw [← hg]; exact ⟨df, rfl, rfl⟩
  | some a =>
    rw [hd] at hg
    obtain ⟨tag, v⟩ := a
    obtain ⟨i, rfl⟩ := ht v hg.symm
    exact ⟨i, rfl, by rw [← hg]; rfl⟩

theorem getInteger_bad {d : Attrs} {g : List (Bytes × Attr)} (h : Reports d g) {n : Bytes}
    (ht : ¬ ∀ v, given g n = some v → ∃ i, v = .int i) : getInteger d n = .throws .badVariant := by
  have hg := reports_given h n
  unfold getInteger Attrs.get
  cases hd : KMap.get? d n with
  | none => rw [hd] at hg; exact absurd (fun v hv => by rw [← hg] at hv; cases hv) ht
  | some a =>
    rw [hd] at hg
    obtain ⟨tag, v⟩ := a
    simp only [getAs]
    rw [if_neg]
    · rfl
    · intro ha
      refine ht (fun x hx => ?_)
      rw [← hg] at hx
      cases hx
      cases v <;> simp [Value.ty] at ha ⊢

theorem getString_bad {d : Attrs} {g : List (Bytes × Attr)} (h : Reports d g) {n df : Bytes}
    (ht : ¬ ∀ v, given g n = some v → ∃ i, v = .str i) : getString d n df = .throws .badVariant := by
  have hg := reports_given h n
  unfold getString Attrs.get
  cases hd : KMap.get? d n with
  | none => rw [hd] at hg; exact absurd (fun v hv => by rw [← hg] at hv; cases hv) ht
  | some a =>
    rw [hd] at hg
    obtain ⟨tag, v⟩ := a
    simp only [getAs]
    rw [if_neg]
    · rfl
    · intro ha
      refine ht (fun x hx => ?_)
      rw [← hg] at hx
      cases hx
      cases v <;> simp [Value.ty] at ha ⊢

/-! ## C69 -/

/-- The full claim of C69: when the printer refuses a request, an error is reported. -/
def C69_full : Prop :=
  ∀ (reqId : Nat) (p : Printer) (reply : Except Bytes Bytes), Refused reply → ¬ IsFile p →
    (∀ kvs, (setAttributes reqId p kvs reply).out ≠ .ok none) ∧ (identify reqId p reply).out ≠ .ok none ∧
    (∀ l, (getJobs reqId p reply).out ≠ .ok (none, l)) ∧ (∀ id, (cancelJob reqId p id reply).out ≠ .ok none) ∧
    (∀ files p', (refresh files reqId p reply).out ≠ .ok (none, p'))

/-- C69 for cancelling a job: no error is reported when the printer accepts; when it refuses, its message, or "unknown" if it gives
none. Whatever else is in the reply. What is missing: the other requests (`C69_refused_false`). -/
theorem C69_cancel_partial (reqId : Nat) (p : Printer) (id : Int) (hf : Fits p) (hid : InInt32 id)
    (gs : List (UInt8 × List (Bytes × Attr))) (h : ∀ g ∈ gs, RecvOk g) (maj min : UInt8) (status : UInt16) (rid : Nat)
    (hm : ∀ v, given (lastOfTag 1 gs) (ascii "status-message") = some v → ∃ s, v = .str s) :
    (status ≤ 0xff → (cancelJob reqId p id (.ok (response maj min status rid gs))).out = .ok none) ∧
    (0xff < status → ∃ s, (cancelJob reqId p id (.ok (response maj min status rid gs))).out = .ok (some s) ∧
      (given (lastOfTag 1 gs) (ascii "status-message")).getD (.str (ascii "unknown")) = .str s) := by
  obtain ⟨m, bytes, _, _, h3⟩ := cancelJob_eq hf reqId id hid (.ok (response maj min status rid gs))
  obtain ⟨r, h4, rfl, _, h6, _⟩ := received_response h maj min status rid
  rw [h3, h4]
  simp only [Outcome.bind_ok, cancelResult]
  constructor
  · intro hs
    rw [if_neg (by rw [gt_iff_lt, UInt16.not_lt]; exact hs)]
  · intro hs
    obtain ⟨s, h7, h8⟩ := getString_given h6 (ascii "status-message") (ascii "unknown") hm
    rw [if_pos hs, h7]
    exact ⟨s, rfl, h8⟩

/-- The reply of a printer that refuses: client-error-not-possible, with a message. -/
def refusal : List (UInt8 × List (Bytes × Attr)) := [(1, [(ascii "status-message", (0x41, .str (ascii "no")))])]

theorem refusal_ok : ∀ g ∈ refusal, RecvOk g := by
  intro g hg
  simp only [refusal, List.mem_cons, List.not_mem_nil, or_false] at hg
  subst hg
  refine ⟨.inl rfl, fun n a h => ?_⟩
  simp only [List.mem_cons, List.not_mem_nil, or_false, Prod.mk.injEq] at h
  obtain ⟨rfl, rfl⟩ := h
  exact ⟨by decide, by decide, by simp only [WellTyped, PlainOk]; decide⟩

example : Fits managedPrinter ∧ (∀ g ∈ refusal, RecvOk g) ∧
    ∀ v, given (lastOfTag 1 refusal) (ascii "status-message") = some v → ∃ s, v = .str s := by
  refine ⟨managedPrinter_fits, refusal_ok, fun v hv => ?_⟩
  have : given (lastOfTag 1 refusal) (ascii "status-message") = some (.str (ascii "no")) := by decide +kernel
  rw [this] at hv
  cases hv
  exact ⟨_, rfl⟩

/-- C69 for failures of the network: every one is reported, with its text. (For the attributes of a printer see
`C71_unreachable`.) -/
theorem C69_network_partial (reqId : Nat) (p : Printer) (hf : Fits p) (text : Bytes) :
    (∀ kvs attrs, toSet p.attrs kvs [] = .ok attrs → GroupOk attrs → (setAttributes reqId p kvs (.error text)).out = .ok (some text)) ∧
    (KMap.get? p.attrs (ascii "identify-actions-supported") ≠ none → (identify reqId p (.error text)).out = .ok (some text)) ∧
    (getJobs reqId p (.error text)).out = .ok (some text, []) ∧
    (∀ id, InInt32 id → (cancelJob reqId p id (.error text)).out = .ok (some text)) := by
  refine ⟨fun kvs attrs hs hg => ?_, fun hi => ?_, ?_, fun id hid => ?_⟩
  · obtain ⟨m, bytes, _, _, h3⟩ := sendAttributes_eq hf hg reqId (.error text)
    have : setAttributes reqId p kvs (.error text) = sendAttributes reqId p attrs (.error text) := by unfold setAttributes; rw [hs]
    rw [this, h3]; rfl
  · obtain ⟨m, bytes, _, _, h3⟩ := identify_eq hf hi reqId (.error text)
    rw [h3]; rfl
  · obtain ⟨m, bytes, _, _, h3⟩ := getJobs_eq hf reqId (.error text)
    rw [h3]; rfl
  · obtain ⟨m, bytes, _, _, h3⟩ := cancelJob_eq hf reqId id hid (.error text)
    rw [h3]; rfl

example : Fits managedPrinter ∧ toSet managedPrinter.attrs [(ascii "sleep-time", ascii "7")] [] = .ok [(ascii "sleep-time", (0x21, .int 7))] ∧
    GroupOk [(ascii "sleep-time", (0x21, .int 7))] := by
  refine ⟨managedPrinter_fits, by decide +kernel, by unfold KMap.Sorted; simp, fun n a h => ?_⟩
  simp only [List.mem_cons, List.not_mem_nil, or_false, Prod.mk.injEq] at h
  obtain ⟨rfl, rfl⟩ := h
  exact ⟨by decide, by decide, by simp only [WellTyped, PlainOk, InInt32]; decide⟩

/-- C69: a printer that cannot identify itself is not asked to, and this is reported. -/
theorem C69_identify_unsupported (reqId : Nat) (p : Printer) (reply : Except Bytes Bytes)
    (h : KMap.get? p.attrs (ascii "identify-actions-supported") = none) :
    (identify reqId p reply).events = [] ∧ ∃ e, (identify reqId p reply).out = .ok (some e) := by
  unfold identify
  rw [if_neg (by unfold KMap.has; rw [h]; simp)]
  exact ⟨rfl, _, rfl⟩

example : KMap.get? managedPrinter.attrs (ascii "identify-actions-supported") = none := by decide +kernel

/-- C69, the other side: asked to identify itself, a printer that can gets one request for it. -/
theorem C69_identify_request (reqId : Nat) (p : Printer) (reply : Except Bytes Bytes) (hf : Fits p)
    (h : KMap.get? p.attrs (ascii "identify-actions-supported") ≠ none) :
    ∃ m, Posts (identify reqId p reply).events m ∧ IsRequest p 0x3c [] [] m := by
  obtain ⟨m, bytes, h1, h2, h3⟩ := identify_eq hf h reqId reply
  exact ⟨m, ⟨bytes, by rw [h3], h2⟩, h1⟩

/-- A printer with a light. -/
def blinkingPrinter : Printer :=
  { addr := ascii "http://printer/", user := ascii "me", attrs := [(ascii "identify-actions-supported", (0x44, .str (ascii "flash")))] }

example : Fits blinkingPrinter ∧ KMap.get? blinkingPrinter.attrs (ascii "identify-actions-supported") ≠ none := by
  refine ⟨⟨by decide, by decide, fun v hv => ?_⟩, by decide +kernel⟩
  have : KMap.get? blinkingPrinter.attrs (ascii "ipp-versions-supported") = none := by decide +kernel
  rw [this] at hv
  exact hv.elim

/-- No files. -/
def noFiles : Files := { read := fun _ => none, overrides := none, parse := fun _ => .error [] }

/-- C69 is false of setting attributes, of identification, of the list of jobs and of the attributes of the printer: a refusal by the
printer passes for success. -/
theorem C69_refused_false : Refused (.ok (response 2 0 0x0404 1 refusal)) ∧ ¬ IsFile blinkingPrinter ∧
    (setAttributes 1 managedPrinter [(ascii "sleep-time", ascii "7")] (.ok (response 2 0 0x0404 1 refusal))).out = .ok none ∧
    (identify 1 blinkingPrinter (.ok (response 2 0 0x0404 1 refusal))).out = .ok none ∧
    (getJobs 1 blinkingPrinter (.ok (response 2 0 0x0404 1 refusal))).out = .ok (none, []) ∧
    (refresh noFiles 1 blinkingPrinter (.ok (response 2 0 0x0404 1 refusal))).out = .ok (none, { blinkingPrinter with attrs := [] }) ∧
    ¬ C69_full := by
  have hr : Refused (.ok (response 2 0 0x0404 1 refusal)) := by
    obtain ⟨m, h1, h2, _⟩ := received_response refusal_ok 2 0 0x0404 1
    unfold received at h1
    split at h1
    · rename_i he; cases he
    · rename_i d he
      cases he
      split at h1
      · rename_i m' r hd
        cases h1
        exact ⟨_, _, _, rfl, hd, by rw [h2]; decide⟩
      · cases h1
      · cases h1
      · cases h1
  have hi : (identify 1 blinkingPrinter (.ok (response 2 0 0x0404 1 refusal))).out = .ok none := by decide +kernel
  have hn : ¬ IsFile blinkingPrinter := by unfold IsFile; decide +kernel
  exact ⟨hr, hn, by decide +kernel, hi, by decide +kernel, by decide +kernel, fun h => (h 1 blinkingPrinter _ hr hn).2.1 hi⟩

/-! ## C70 -/

theorem jobInfos_describe {as : List Attrs} {gs : List (List (Bytes × Attr))} (h : All2 Reports as gs) (ht : ∀ g ∈ gs, JobTyped g) :
    ∃ l, jobInfos as = .ok l ∧ All2 Describes l gs := by
  induction h with
  | nil => exact ⟨[], rfl, .nil⟩
  | @cons a g as gs hr _ ih =>
    obtain ⟨l, h1, h2⟩ := ih (fun g hg => ht g (List.mem_cons_of_mem _ hg))
    obtain ⟨t1, t2, t3, t4⟩ := ht g (List.mem_cons_self ..)
    obtain ⟨i, e1, g1⟩ := getInteger_given hr _ t1
    obtain ⟨n, e2, g2⟩ := getString_given hr (ascii "job-name") [] t2
    obtain ⟨s, e3, g3⟩ := getInteger_given hr _ t3
    obtain ⟨m, e4, g4⟩ := getString_given hr (ascii "job-printer-state-message") [] t4
    refine ⟨⟨i, n, s, m⟩ :: l, ?_, .cons ⟨g1, g2, g3, g4⟩ h2⟩
    unfold jobInfos jobInfo
    rw [e1, e2, e3, e4, h1]
    rfl

theorem jobInfos_bad {as : List Attrs} {gs : List (List (Bytes × Attr))} (h : All2 Reports as gs) (ht : ¬ ∀ g ∈ gs, JobTyped g) :
    jobInfos as = .throws .badVariant := by
  induction h with
  | nil => exact absurd (fun g hg => by cases hg) ht
  | @cons a g as gs hr _ ih =>
    unfold jobInfos jobInfo
    by_cases t1 : ∀ v, given g (ascii "job-id") = some v → ∃ i, v = .int i
    · obtain ⟨i, e1, _⟩ := getInteger_given hr _ t1
      rw [e1]
      by_cases t2 : ∀ v, given g (ascii "job-name") = some v → ∃ i, v = .str i
      · obtain ⟨n, e2, _⟩ := getString_given hr (ascii "job-name") [] t2
        rw [e2]
        by_cases t3 : ∀ v, given g (ascii "job-state") = some v → ∃ i, v = .int i
        · obtain ⟨s, e3, _⟩ := getInteger_given hr _ t3
          rw [e3]
          by_cases t4 : ∀ v, given g (ascii "job-printer-state-message") = some v → ∃ i, v = .str i
          · obtain ⟨m, e4, _⟩ := getString_given hr (ascii "job-printer-state-message") [] t4
            rw [e4, ih (fun hall => ht (fun x hx => ?_))]
            · rfl
            · rcases List.mem_cons.mp hx with rfl | hx
              · exact ⟨t1, t2, t3, t4⟩
              · exact hall x hx
          · rw [getString_bad hr t4]; rfl
        · rw [getInteger_bad hr t3]; rfl
      · rw [getString_bad hr t2]; rfl
    · rw [getInteger_bad hr t1]; rfl

/-- The full claim of C70: for every well-formed reply there is an error or a list. -/
def C70_full : Prop :=
  ∀ (reqId : Nat) (p : Printer), Fits p → ∀ (gs : List (UInt8 × List (Bytes × Attr))), (∀ g ∈ gs, RecvOk g) →
    ∀ (maj min : UInt8) (status : UInt16) (rid : Nat),
    ∃ r, (getJobs reqId p (.ok (response maj min status rid gs))).out = .ok r

/-- C70: one request is sent, for the operation Get-Jobs, for all attributes; and for every reply the list has one entry for each job
in the reply, in this order, with the id, name, state and message that are given there, unless one of these attributes has a type that it must
not have: then `getJobs` ends with an exception. -/
theorem C70_jobs (reqId : Nat) (p : Printer) (hf : Fits p) (gs : List (UInt8 × List (Bytes × Attr))) (h : ∀ g ∈ gs, RecvOk g)
    (maj min : UInt8) (status : UInt16) (rid : Nat) :
    (∃ m, Posts (getJobs reqId p (.ok (response maj min status rid gs))).events m ∧
      IsRequest p 10 [(ascii "requested-attributes", (0x44, .str (ascii "all")))] [] m) ∧
    ((∀ g ∈ ofTag 2 gs, JobTyped g) →
      ∃ l, (getJobs reqId p (.ok (response maj min status rid gs))).out = .ok (none, l) ∧ All2 Describes l (ofTag 2 gs)) ∧
    ((¬ ∀ g ∈ ofTag 2 gs, JobTyped g) → (getJobs reqId p (.ok (response maj min status rid gs))).out = .throws .badVariant) := by
  obtain ⟨m, bytes, h1, h2, h3⟩ := getJobs_eq hf reqId (.ok (response maj min status rid gs))
  obtain ⟨r, h4, _, h5, _⟩ := received_response h maj min status rid
  refine ⟨⟨m, ⟨bytes, by rw [h3], h2⟩, h1⟩, fun ht => ?_, fun ht => ?_⟩
  · obtain ⟨l, h6, h7⟩ := jobInfos_describe h5 ht
    refine ⟨l, ?_, h7⟩
    rw [h3, h4]
    simp only [Outcome.bind_ok, listJobs]
    rw [h6]
    rfl
  · rw [h3, h4]
    simp only [Outcome.bind_ok, listJobs]
    rw [jobInfos_bad h5 ht]
    rfl

/-- C70: cancelling a job sends one request, for the operation Cancel-Job and this job. -/
theorem C70_cancel (reqId : Nat) (p : Printer) (id : Int) (hf : Fits p) (hid : InInt32 id) (reply : Except Bytes Bytes) :
    ∃ m, Posts (cancelJob reqId p id reply).events m ∧ IsRequest p 8 [(ascii "job-id", (0x21, .int id))] [] m := by
  obtain ⟨m, bytes, h1, h2, h3⟩ := cancelJob_eq hf reqId id hid reply
  exact ⟨m, ⟨bytes, by rw [h3], h2⟩, h1⟩

example : Fits managedPrinter ∧ InInt32 17 := ⟨managedPrinter_fits, by unfold InInt32; decide⟩

/-- Two jobs. -/
def twoJobs : List (UInt8 × List (Bytes × Attr)) :=
  [(1, [(ascii "attributes-charset", (0x47, .str (ascii "utf-8")))]),
   (2, [(ascii "job-id", (0x21, .int 17)), (ascii "job-state", (0x23, .int 5)), (ascii "job-name", (0x42, .str (ascii "a.pdf")))]),
   (2, [(ascii "job-name", (0x42, .str (ascii "b.pdf"))), (ascii "job-id", (0x21, .int 18)),
        (ascii "job-printer-state-message", (0x41, .str (ascii "paper jam")))])]

theorem twoJobs_ok : (∀ g ∈ twoJobs, RecvOk g) ∧ ∀ g ∈ ofTag 2 twoJobs, JobTyped g := by
  constructor
  · intro g hg
    simp only [twoJobs, List.mem_cons, List.not_mem_nil, or_false] at hg
    rcases hg with rfl | rfl | rfl
    · refine ⟨.inl rfl, fun n a h => ?_⟩
      simp only [List.mem_cons, List.not_mem_nil, or_false, Prod.mk.injEq] at h
      obtain ⟨rfl, rfl⟩ := h
      exact ⟨by decide, by decide, by simp only [WellTyped, PlainOk]; decide⟩
    · refine ⟨.inr (.inl rfl), fun n a h => ?_⟩
      simp only [List.mem_cons, List.not_mem_nil, or_false, Prod.mk.injEq] at h
      rcases h with ⟨rfl, rfl⟩ | ⟨rfl, rfl⟩ | ⟨rfl, rfl⟩ <;>
        exact ⟨by decide, by decide, by simp only [WellTyped, PlainOk, InInt32]; decide⟩
    · refine ⟨.inr (.inl rfl), fun n a h => ?_⟩
      simp only [List.mem_cons, List.not_mem_nil, or_false, Prod.mk.injEq] at h
      rcases h with ⟨rfl, rfl⟩ | ⟨rfl, rfl⟩ | ⟨rfl, rfl⟩ <;>
        exact ⟨by decide, by decide, by simp only [WellTyped, PlainOk, InInt32]; decide⟩
  · intro g hg
    have hof : ofTag 2 twoJobs = [twoJobs[1].2, twoJobs[2].2] := by decide +kernel
    rw [hof] at hg
    simp only [List.mem_cons, List.not_mem_nil, or_false] at hg
    have k : ∀ {o : Option Value} {x : Option Value} {P : Value → Prop}, o = x → (∀ v, x = some v → P v) → ∀ v, o = some v → P v := by
      rintro o x P rfl h; exact h
    rcases hg with rfl | rfl
    · exact ⟨k (x := some (.int 17)) (by decide +kernel) (by rintro v ⟨⟩; exact ⟨_, rfl⟩),
        k (x := some (.str (ascii "a.pdf"))) (by decide +kernel) (by rintro v ⟨⟩; exact ⟨_, rfl⟩),
        k (x := some (.int 5)) (by decide +kernel) (by rintro v ⟨⟩; exact ⟨_, rfl⟩),
        k (x := none) (by decide +kernel) (by rintro v ⟨⟩)⟩
    · exact ⟨k (x := some (.int 18)) (by decide +kernel) (by rintro v ⟨⟩; exact ⟨_, rfl⟩),
        k (x := some (.str (ascii "b.pdf"))) (by decide +kernel) (by rintro v ⟨⟩; exact ⟨_, rfl⟩),
        k (x := none) (by decide +kernel) (by rintro v ⟨⟩),
        k (x := some (.str (ascii "paper jam"))) (by decide +kernel) (by rintro v ⟨⟩; exact ⟨_, rfl⟩)⟩

example : (getJobs 1 managedPrinter (.ok (response 2 0 0 1 twoJobs))).out =
    .ok (none, [⟨17, ascii "a.pdf", 5, []⟩, ⟨18, ascii "b.pdf", 0, ascii "paper jam"⟩]) := by decide +kernel

/-- C70 is false: a job whose id is a keyword ends the function by an exception that the program does not catch. -/
theorem C70_types_false : ¬ C70_full := by
  intro h
  obtain ⟨r, hr⟩ := h 1 managedPrinter managedPrinter_fits [(2, [(ascii "job-id", (0x44, .str (ascii "none")))])] (by
    intro g hg
    obtain rfl := List.mem_singleton.mp hg
    refine ⟨.inr (.inl rfl), fun n a h => ?_⟩
    simp only [List.mem_cons, List.not_mem_nil, or_false, Prod.mk.injEq] at h
    obtain ⟨rfl, rfl⟩ := h
    exact ⟨by decide, by decide, by simp only [WellTyped, PlainOk]; decide⟩) 2 0 0 1
  have : (getJobs 1 managedPrinter (.ok (response 2 0 0 1 [(2, [(ascii "job-id", (0x44, .str (ascii "none")))])]))).out =
    .throws .badVariant := by decide +kernel
  rw [this] at hr
  cases hr

end Verif.Printer
