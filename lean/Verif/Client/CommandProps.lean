import Verif.Client.ArgsProps
import Verif.Printer.JobListProps
import Verif.Printer.RefreshProps
import Verif.Text.Lemmas

/-!
# Property C74: the sub-commands of ippclient other than print
-/

namespace Verif.Client

open Ipp Job Printer Printer.Spec Tools Tools.Spec
open Ipp.Spec (InInt32)

/-! ## Specification -/

namespace Spec

/-- The text gives these values for these names: `name=value`, one after the other with commas between them. -/
inductive Pairs : Bytes → List (Bytes × Bytes) → Prop where
  | last (k v : Bytes) (hk : 44 ∉ k ∧ 61 ∉ k) (hv : 44 ∉ v ∧ 61 ∉ v) : Pairs (k ++ 61 :: v) [(k, v)]
  | more (k v rest : Bytes) (kvs : List (Bytes × Bytes)) (hk : 44 ∉ k ∧ 61 ∉ k) (hv : 44 ∉ v ∧ 61 ∉ v) (h : Pairs rest kvs) :
      Pairs ((k ++ 61 :: v) ++ 44 :: rest) ((k, v) :: kvs)

/-- Nothing (more) is sent, and the program ends with 1. -/
def FailsAtOnce (w : World) (x : Act End) : Prop := x = ⟨[], .ok { code := 1, store := w.store }⟩

/-- The program ends with this code, the saved settings unchanged. -/
def EndsWith (w : World) (x : Act End) (code : Nat) : Prop := ∃ e, x.out = .ok e ∧ e.code = code ∧ e.store = w.store

end Spec

open Spec

/-! ## Proofs -/

theorem bindPure {α β : Type} (x : Act α) (f : α → β) : (x >>= fun a => pure (f a) : Act β) = ⟨x.events, x.out >>= fun a => .ok (f a)⟩ := by
  show Act.bind x _ = _
  unfold Act.bind
  cases h : x.out <;> simp [pure]

theorem keyValue_eq {s k v : Bytes} : keyValue s = some (k, v) ↔ s = k ++ 61 :: v ∧ 61 ∉ k ∧ 61 ∉ v := by
  unfold keyValue
  simp only
  have hs := List.takeWhile_append_dropWhile (p := fun c : UInt8 => decide (c ≠ 61)) (l := s)
  generalize ht : s.takeWhile (fun c => decide (c ≠ 61)) = t at hs
  have hnt : 61 ∉ t := by
    intro hm
    rw [← ht] at hm
    have := List.all_takeWhile (l := s) (p := fun c : UInt8 => decide (c ≠ 61))
    rw [List.all_eq_true] at this
    have := this _ hm
    simp at this
  have hd : s.drop t.length = s.dropWhile (fun c => decide (c ≠ 61)) := by
    conv => lhs; rw [← hs]
    simp
  rw [hd]
  have hhead := List.head?_dropWhile_not (fun c : UInt8 => decide (c ≠ 61)) s
  constructor
  · intro h
    split at h
    · cases h
    · rename_i x v' hx
      split at h
      · cases h
      · rename_i hv
        cases h
        rw [hx] at hhead hs
        simp only [List.head?_cons] at hhead
        have : x = 61 := by simpa using hhead
        subst this
        exact ⟨hs.symm, hnt, hv⟩
  · rintro ⟨rfl, h1, h2⟩
    have e1 : List.dropWhile (fun c : UInt8 => decide (c ≠ 61)) (k ++ 61 :: v) = 61 :: v := by
      rw [List.dropWhile_append_of_pos (by intro a ha; simp; rintro rfl; exact h1 ha)]
      simp
    have e2 : t = k := by
      rw [← ht, List.takeWhile_append_of_pos (by intro a ha; simp; rintro rfl; exact h1 ha)]
      simp
    rw [e1]
    simp [h2, e2]

theorem keyValues_pairs (text : Bytes) : ∀ kvs, keyValues (Text.splitString [44] text) = some kvs ↔ Pairs text kvs := by
  induction text using Text.splitString_ind 44 with
  | h0 s h =>
    intro kvs
    rw [Text.splitString_notMem 44 s h]
    simp only [keyValues]
    constructor
    · intro hk
      cases hv : keyValue s with
      | none => rw [hv] at hk; cases hk
      | some kv =>
        rw [hv] at hk
        obtain ⟨k, v⟩ := kv
        cases hk
        obtain ⟨rfl, h1, h2⟩ := keyValue_eq.mp hv
        simp only [List.mem_append, List.mem_cons, not_or] at h
        exact .last k v ⟨h.1, h1⟩ ⟨h.2.2, h2⟩
    · intro hp
      cases hp with
      | last k v hk hv => rw [keyValue_eq.mpr ⟨rfl, hk.2, hv.2⟩]; rfl
      | more k v rest kvs hk hv h' => simp at h
  | h1 a b h ih =>
    intro kvs
    rw [Text.splitString_step 44 a b h]
    simp only [keyValues]
    constructor
    · intro hk
      cases hv : keyValue a with
      | none => rw [hv] at hk; cases hk
      | some kv =>
        cases hr : keyValues (Text.splitString [44] b) with
        | none => rw [hv, hr] at hk; cases hk
        | some l =>
          rw [hv, hr] at hk
          obtain ⟨k, v⟩ := kv
          cases hk
          obtain ⟨rfl, h1, h2⟩ := keyValue_eq.mp hv
          simp only [List.mem_append, List.mem_cons, not_or] at h
          exact .more k v b l ⟨h.1, h1⟩ ⟨h.2.2, h2⟩ ((ih l).mp hr)
    · intro hp
      have uniq : ∀ {x y x' y' : Bytes}, 44 ∉ x → 44 ∉ x' → x ++ 44 :: y = x' ++ 44 :: y' → x = x' ∧ y = y' := by
        intro x y x' y' hx hx' he
        have e1 := Text.splitString_step 44 x y hx
        rw [he, Text.splitString_step 44 x' y' hx'] at e1
        have : x' = x := (List.cons.inj e1).1
        subst this
        exact ⟨rfl, by simpa using he⟩
      generalize hs : a ++ 44 :: b = s at hp
      cases hp with
      | last k v hk hv =>
        have : (44 : UInt8) ∈ k ++ 61 :: v := by rw [← hs]; simp
        simp only [List.mem_append, List.mem_cons] at this
        rcases this with h | h | h
        · exact absurd h hk.1
        · cases h
        · exact absurd h hv.1
      | more k v rest kvs hk hv h' =>
        obtain ⟨rfl, rfl⟩ := uniq h (by simp [hk.1, hv.1]) hs
        rw [keyValue_eq.mpr ⟨rfl, hk.2, hv.2⟩, (ih kvs).mpr h']
        rfl

theorem command_eq (w : World) (p : Printer) (r : Result) :
    command w p (ascii "identify") r = identifyCommand w p ∧
    command w p (ascii "get-attrs") r = ⟨[], .ok { code := 0, store := w.store, shown := .attrs (attrsToJson p.attrs) }⟩ ∧
    command w p (ascii "set-attrs") r = setAttrsCommand w p (r.positional.getD 1 []) ∧
    command w p (ascii "get-jobs") r = getJobsCommand w p ∧
    command w p (ascii "cancel-job") r = cancelCommand w p (numOf (r.vals 2)) := by
  refine ⟨?_, ?_, ?_, ?_, ?_⟩ <;> unfold command
  · rw [if_neg (by decide +kernel), if_pos rfl]
  · rw [if_neg (by decide +kernel), if_neg (by decide +kernel), if_pos rfl]; rfl
  · rw [if_neg (by decide +kernel), if_neg (by decide +kernel), if_neg (by decide +kernel), if_pos rfl]
  · rw [if_neg (by decide +kernel), if_neg (by decide +kernel), if_neg (by decide +kernel), if_neg (by decide +kernel), if_pos rfl]
  · rw [if_neg (by decide +kernel), if_neg (by decide +kernel), if_neg (by decide +kernel), if_neg (by decide +kernel), if_neg (by decide +kernel),
      if_pos rfl]

theorem endOf_ends {w : World} {x : Act (Option Bytes)} {e : Option Bytes} (h : x.out = .ok e) :
    EndsWith w (x >>= fun a => pure (endOf w a)) (if e = none then 0 else 1) := by
  rw [bindPure]
  refine ⟨endOf w e, by simp [h], ?_, ?_⟩ <;> cases e <;> rfl

theorem set_network {reqId : Nat} {p : Printer} {kvs : List (Bytes × Bytes)} {text : Bytes} {e : Event} {es : List Event}
    (h : (setAttributes reqId p kvs (.error text)).events = e :: es) : (setAttributes reqId p kvs (.error text)).out = .ok (some text) := by
  unfold setAttributes at h ⊢
  cases ht : toSet p.attrs kvs [] with
  | throws x => rw [ht] at h; cases h
  | ub => rw [ht] at h; cases h
  | hang => rw [ht] at h; cases h
  | ok attrs =>
    rw [ht] at h
    simp only at h ⊢
    unfold sendAttributes at h ⊢
    cases hm : mkMsg p 0x0013 [] [] attrs with
    | throws x => rw [hm] at h; cases h
    | ub => rw [hm] at h; cases h
    | hang => rw [hm] at h; cases h
    | ok m =>
      rw [hm, lift_bind_ok] at h
      rw [lift_bind_ok]
      unfold doRequest at h ⊢
      cases hb : encodeMsg reqId m with
      | throws x => rw [hb] at h; cases h
      | ub => rw [hb] at h; cases h
      | hang => rw [hb] at h; cases h
      | ok bytes => rw [lift_bind_ok]; rfl

/-- C74: when the printer can not be reached, an accepted command line of any sub-command sends the request for the attributes only, changes no saved
settings and ends with 1. -/
theorem C74_unreachable (w : World) {sub : Bytes} {opts : List Opt} {poss : List Pos} {rest : List Bytes} {uses : List Use} {addr : Bytes} {more : List Bytes}
    (hc : (sub, opts, poss) ∈ commands) (ha : Accounts opts poss rest uses (addr :: more)) (hh : lastUse uses [ascii "-h", ascii "--help"] = none)
    (hl : addr.length < 65536) (hu : w.user.length < 65536) (hn : ¬ IsFile { addr := addr, user := w.user, attrs := [] }) (text : Bytes)
    (hr : w.attrsReply = .error text) :
    (∃ m, Posts (main w (sub :: rest)).events m ∧ IsRequest { addr := addr, user := w.user, attrs := [] } 0xb [] [] m) ∧
      EndsWith w (main w (sub :: rest)) 1 := by
  obtain ⟨r, _, _, h3⟩ := main_of (w := w) hc ha hh
  rw [h3]
  have hf : Fits { addr := addr, user := w.user, attrs := [] } := ⟨hl, hu, fun v hv => by
    obtain ⟨a, ha⟩ : ∃ a : Attr, KMap.get? ([] : Attrs) (ascii "ipp-versions-supported") = some a := by
      cases h : KMap.get? ([] : Attrs) (ascii "ipp-versions-supported") with
      | none => rw [h] at hv; simp [Ipp.Spec.Declares] at hv
      | some a => exact ⟨a, rfl⟩
    cases ha⟩
  obtain ⟨m, bytes, h1, h2, h4⟩ := refresh_eq hf hn w.files w.env.reqId w.attrsReply
  have h5 : (refresh w.files w.env.reqId { addr := addr, user := w.user, attrs := [] } w.attrsReply).out =
      .ok (some text, { addr := addr, user := w.user, attrs := [] }) := by
    rw [hr]; exact C71_unreachable w.files w.env.reqId _ hf hn text
  have h6 : afterAttrs w ((addr :: more).getD 0 []) (fun p => command w p sub r) = ⟨[.post m bytes], .ok { code := 1, store := w.store }⟩ := by
    unfold afterAttrs construct
    show Act.bind (refresh w.files w.env.reqId { addr := addr, user := w.user, attrs := [] } w.attrsReply) _ = _
    unfold Act.bind
    rw [h5]
    simp only
    rw [h4]
    rfl
  rw [h6]
  exact ⟨⟨m, ⟨bytes, rfl, h2⟩, h1⟩, _, rfl, rfl, rfl⟩

/-- C74: `get-attrs` shows the attributes of the printer, and sends nothing else. -/
theorem C74_attrs (w : World) (args : List Bytes) (uses : List Use) (addr : Bytes) (ha : Accounts [helpOpt, verboseOpt] [addrArg] args uses [addr])
    (hh : lastUse uses [ascii "-h", ascii "--help"] = none) :
    main w (ascii "get-attrs" :: args) =
      afterAttrs w addr (fun p => ⟨[], .ok { code := 0, store := w.store, shown := .attrs (attrsToJson p.attrs) }⟩) := by
  obtain ⟨r, _, _, h3⟩ := main_of (w := w) (sub := ascii "get-attrs") (by simp [commands]) ha hh
  rw [h3]
  congr 1

/-- C74: `cancel-job` asks the printer to cancel the job with the id that was given last, and ends with 0 exactly if the printer says that it did. Without
an id it fails at once. -/
theorem C74_cancel_partial (w : World) (args : List Bytes) (uses : List Use) (addr : Bytes)
    (ha : Accounts [helpOpt, verboseOpt, idOpt] [addrArg] args uses [addr]) (hh : lastUse uses [ascii "-h", ascii "--help"] = none) :
    ∃ k, main w (ascii "cancel-job" :: args) = afterAttrs w addr k ∧
      (lastUse uses [ascii "--id"] = none → ∀ p, FailsAtOnce w (k p)) ∧
      ∀ id, InInt32 id → word uses [ascii "--id"] = some (intText id) → ∀ p, Fits p →
        (∃ m, Posts (k p).events m ∧ IsRequest p 8 [(ascii "job-id", (0x21, .int id))] [] m) ∧
        (∀ text, w.reply = .error text → EndsWith w (k p) 1) ∧
        ∀ gs maj min status rid, w.reply = .ok (response maj min status rid gs) → (∀ g ∈ gs, RecvOk g) →
          (∀ v, given (lastOfTag 1 gs) (ascii "status-message") = some v → ∃ s, v = .str s) →
          EndsWith w (k p) (if status ≤ 0xff then 0 else 1) := by
  have hc : (ascii "cancel-job", [helpOpt, verboseOpt, idOpt], [addrArg]) ∈ commands := by simp [commands]
  obtain ⟨r, _, h2, h3⟩ := main_of (w := w) hc ha hh
  have hi := int_eq (command_opts hc).1 ha.uses (i := 2) (names := [ascii "--id"]) rfl
  refine ⟨_, h3, fun hn p => ?_, fun id hid hw p hf => ?_⟩
  · show command w p (ascii "cancel-job") r = _
    rw [(command_eq w p r).2.2.2.2, h2, hi.1 hn]
    rfl
  · have e : command w p (ascii "cancel-job") r = (cancelJob (nextId w p) p id w.reply >>= fun a => pure (endOf w a)) := by
      rw [(command_eq w p r).2.2.2.2, h2, hi.2, hw]
      show cancelCommand w p (stoi (intText id)) = _
      rw [stoi_intText hid]
      rfl
    obtain ⟨m, bytes, h5, h6, h7⟩ := cancelJob_eq hf (nextId w p) id hid w.reply
    refine ⟨⟨m, ⟨bytes, ?_, h6⟩, h5⟩, fun text ht => ?_, fun gs maj min status rid ht hg hm => ?_⟩
    · show (command w p (ascii "cancel-job") r).events = _
      rw [e, bindPure, h7]
    · show EndsWith w (command w p (ascii "cancel-job") r) 1
      rw [e]
      have := endOf_ends (w := w) (x := cancelJob (nextId w p) p id w.reply) (e := some text) (by
        rw [ht]; exact (C69_network_partial (nextId w p) p hf text).2.2.2 id hid)
      simpa using this
    · show EndsWith w (command w p (ascii "cancel-job") r) _
      rw [e]
      have hres := C69_cancel_partial (nextId w p) p id hf hid gs hg maj min status rid hm
      by_cases hs : status ≤ 0xff
      · rw [if_pos hs]
        have := endOf_ends (w := w) (x := cancelJob (nextId w p) p id w.reply) (e := none) (by rw [ht]; exact hres.1 hs)
        simpa using this
      · rw [if_neg hs]
        obtain ⟨s, h8, _⟩ := hres.2 (UInt16.not_le.mp hs)
        have := endOf_ends (w := w) (x := cancelJob (nextId w p) p id w.reply) (e := some s) (by rw [ht]; exact h8)
        simpa using this

/-- C74: `set-attrs` with a text that gives values for names asks the printer for exactly these (the last one for a name counts), when the printer has such
attributes and the values can be read as theirs. With any other text it fails at once. -/
theorem C74_set_partial (w : World) (args : List Bytes) (uses : List Use) (addr text : Bytes)
    (ha : Accounts [helpOpt, verboseOpt] [addrArg, attrsArg] args uses [addr, text]) (hh : lastUse uses [ascii "-h", ascii "--help"] = none) :
    ∃ k, main w (ascii "set-attrs" :: args) = afterAttrs w addr k ∧
      ((∀ kvs, ¬ Pairs text kvs) → ∀ p, FailsAtOnce w (k p)) ∧
      ∀ kvs, Pairs text kvs → ∀ p, Fits p →
        (∀ n t, (n, t) ∈ kvs → n ≠ [] ∧ n.length < 65536 ∧ t.length < 65536 ∧ ∃ old v, KMap.get? p.attrs n = some old ∧ Spells old.1 t v) →
        (∃ m, Posts (k p).events m ∧ IsRequest p 0x13 [] m.printerAttrs m ∧
          ∀ n tag v, KMap.get? m.printerAttrs n = some (tag, v) ↔
            ∃ t old, lastGiven kvs n = some t ∧ KMap.get? p.attrs n = some old ∧ tag = old.1 ∧ Spells old.1 t v) ∧
        ∀ e, w.reply = .error e → EndsWith w (k p) 1 := by
  obtain ⟨r, h1, h2, h3⟩ := main_of (w := w) (sub := ascii "set-attrs") (by simp [commands]) ha hh
  have e : ∀ p, command w p (ascii "set-attrs") r = setAttrsCommand w p text := fun p => by rw [(command_eq w p r).2.2.1, h1]; rfl
  refine ⟨_, h3, fun hn p => ?_, fun kvs hp p hf hs => ?_⟩
  · show command w p (ascii "set-attrs") r = _
    rw [e]
    unfold setAttrsCommand
    cases hk : keyValues (Text.splitString [44] text) with
    | none => rfl
    | some kvs => exact absurd ((keyValues_pairs text kvs).mp hk) (hn kvs)
  · obtain ⟨m, ⟨bytes, h4, h5⟩, h6, h7⟩ := C68_set_partial (nextId w p) p kvs w.reply hf hs
    have e' : command w p (ascii "set-attrs") r = (setAttributes (nextId w p) p kvs w.reply >>= fun a => pure (endOf w a)) := by
      rw [e]
      unfold setAttrsCommand
      rw [(keyValues_pairs text kvs).mpr hp]
    simp only [e']
    refine ⟨⟨m, ⟨bytes, by rw [bindPure, h4], h5⟩, h6, h7⟩, fun err he => ?_⟩
    have := endOf_ends (w := w) (x := setAttributes (nextId w p) p kvs w.reply) (e := some err) (by
      rw [he] at h4 ⊢; exact set_network h4)
    simpa using this

/-- C74: `get-jobs` asks for the jobs, and shows those that the printer reports; attributes of a job that have types they must not have end it with an exception. -/
theorem C74_jobs_partial (w : World) (args : List Bytes) (uses : List Use) (addr : Bytes) (ha : Accounts [helpOpt, verboseOpt] [addrArg] args uses [addr])
    (hh : lastUse uses [ascii "-h", ascii "--help"] = none) :
    ∃ k, main w (ascii "get-jobs" :: args) = afterAttrs w addr k ∧ ∀ p, Fits p →
      (∃ m, Posts (k p).events m ∧ IsRequest p 10 [(ascii "requested-attributes", (0x44, .str (ascii "all")))] [] m) ∧
      (∀ text, w.reply = .error text → EndsWith w (k p) 1) ∧
      ∀ gs maj min status rid, w.reply = .ok (response maj min status rid gs) → (∀ g ∈ gs, RecvOk g) →
        ((∀ g ∈ ofTag 2 gs, JobTyped g) → ∃ l, (k p).out = .ok { code := 0, store := w.store, shown := .jobs l } ∧ All2 Describes l (ofTag 2 gs)) ∧
        ((¬ ∀ g ∈ ofTag 2 gs, JobTyped g) → (k p).out = .throws .badVariant) := by
  obtain ⟨r, h1, h2, h3⟩ := main_of (w := w) (sub := ascii "get-jobs") (by simp [commands]) ha hh
  refine ⟨_, h3, fun p hf => ?_⟩
  have e : command w p (ascii "get-jobs") r = ⟨(getJobs (nextId w p) p w.reply).events, (getJobs (nextId w p) p w.reply).out >>= fun a => .ok (match a with
      | (some _, _) => failed w
      | (none, l) => { fine w with shown := .jobs l })⟩ := by
    rw [(command_eq w p r).2.2.2.1, ← bindPure]
    unfold getJobsCommand
    congr 1
    funext a
    obtain ⟨e, l⟩ := a
    cases e <;> rfl
  obtain ⟨m, bytes, h5, h6, h7⟩ := getJobs_eq hf (nextId w p) w.reply
  simp only [e]
  refine ⟨⟨m, ⟨bytes, ?_, h6⟩, h5⟩, fun text ht => ?_, fun gs maj min status rid ht hg => ?_⟩
  · rw [h7]
  · refine ⟨failed w, ?_, rfl, rfl⟩
    rw [ht, (C69_network_partial (nextId w p) p hf text).2.2.1]
    rfl
  · obtain ⟨_, hl, hb⟩ := C70_jobs (nextId w p) p hf gs hg maj min status rid
    refine ⟨fun hj => ?_, fun hj => ?_⟩
    · obtain ⟨l, h8, h9⟩ := hl hj
      refine ⟨l, ?_, h9⟩
      rw [ht, h8]
      rfl
    · rw [ht, hb hj]
      rfl

/-- C74: `identify` asks the printer to identify itself, unless the printer does not say that it can; then it fails at once. -/
theorem C74_identify_partial (w : World) (args : List Bytes) (uses : List Use) (addr : Bytes)
    (ha : Accounts [helpOpt, verboseOpt] [addrArg] args uses [addr]) (hh : lastUse uses [ascii "-h", ascii "--help"] = none) :
    ∃ k, main w (ascii "identify" :: args) = afterAttrs w addr k ∧ ∀ p,
      (KMap.get? p.attrs (ascii "identify-actions-supported") = none → FailsAtOnce w (k p)) ∧
      (KMap.get? p.attrs (ascii "identify-actions-supported") ≠ none → Fits p →
        (∃ m, Posts (k p).events m ∧ IsRequest p 0x3c [] [] m) ∧ ∀ text, w.reply = .error text → EndsWith w (k p) 1) := by
  obtain ⟨r, h1, h2, h3⟩ := main_of (w := w) (sub := ascii "identify") (by simp [commands]) ha hh
  refine ⟨_, h3, fun p => ?_⟩
  have e : command w p (ascii "identify") r = (identify (nextId w p) p w.reply >>= fun a => pure (endOf w a)) := (command_eq w p r).1
  simp only [e]
  constructor
  · intro hn
    unfold identify
    rw [if_neg (by unfold KMap.has; rw [hn]; simp)]
    rfl
  · intro hi hf
    obtain ⟨m, bytes, h5, h6, h7⟩ := identify_eq hf hi (nextId w p) w.reply
    refine ⟨⟨m, ⟨bytes, by rw [bindPure, h7], h6⟩, h5⟩, fun text ht => ?_⟩
    have := endOf_ends (w := w) (x := identify (nextId w p) p w.reply) (e := some text) (by
      rw [ht]; exact (C69_network_partial (nextId w p) p hf text).2.1 hi)
    simpa using this

/-- Two values, the second one empty. -/
example : Pairs (ascii "printer-location=hall,printer-info=") [(ascii "printer-location", ascii "hall"), (ascii "printer-info", [])] :=
  .more (ascii "printer-location") (ascii "hall") _ _ (by decide +kernel) (by decide +kernel)
    (.last (ascii "printer-info") [] (by decide +kernel) (by decide +kernel))

/-- A text that gives no values. -/
example : ∀ kvs, ¬ Pairs (ascii "a=b=c") kvs := fun kvs h => by
  have := (keyValues_pairs _ kvs).mpr h
  have h2 : keyValues (Text.splitString [44] (ascii "a=b=c")) = none := by decide +kernel
  rw [h2] at this
  cases this

/-- a use of `--id` -/
def idUse : Use := { option := 2, words := [ascii "--id", ascii "-17"], value := .num (-17) }

/-- A command line with an id, and without one. -/
example : ∃ uses, Accounts [helpOpt, verboseOpt, idOpt] [addrArg] [ascii "--id", ascii "-17", ascii "ipp://p"] uses [ascii "ipp://p"] ∧
    lastUse uses [ascii "-h", ascii "--help"] = none ∧ word uses [ascii "--id"] = some (intText (-17)) ∧ InInt32 (-17) := by
  refine ⟨[idUse], ⟨by decide +kernel, ?_, ?_, ?_, by decide +kernel⟩, rfl, by decide +kernel, by unfold InInt32; decide⟩
  · intro u hu
    simp only [List.mem_cons, List.not_mem_nil, or_false] at hu
    subst hu
    exact isUse_of (name := ascii "--id") (w := ascii "-17") rfl rfl rfl rfl (by decide +kernel)
  · intro a ha
    cases ha
    have : ∀ o ∈ [helpOpt, verboseOpt, idOpt].map (·.names), ascii "ipp://p" ∉ o := by decide +kernel
    intro o ho
    exact this o.names (List.mem_map_of_mem ho)
  · intro i p hp hi
    match i, hp, hi with
    | 0, _, hi => simp at hi
    | i + 1, hp, _ => simp at hp

example : Accounts [helpOpt, verboseOpt] [addrArg, attrsArg] [ascii "http://p", ascii "a=b"] [] [ascii "http://p", ascii "a=b"] ∧
    lastUse [] [ascii "-h", ascii "--help"] = none ∧ ¬ IsFile { addr := ascii "http://p", user := [], attrs := [] } := by
  refine ⟨⟨by decide +kernel, nofun, ?_, ?_, by decide +kernel⟩, rfl, ?_⟩
  · intro a ha
    cases ha
    have : ∀ o ∈ [helpOpt, verboseOpt].map (·.names), ascii "http://p" ∉ o := by decide +kernel
    intro o ho
    exact this o.names (List.mem_map_of_mem ho)
  · intro i p hp hi
    match i, hp, hi with
    | 0, _, hi => simp at hi
    | 1, _, hi => simp at hi
    | i + 2, hp, _ => simp at hp
  · intro h
    have := (startsWith_file _).mpr h
    revert this
    decide +kernel

/-! ## Numbers with something after them -/

/-- A text that starts with a number: white space, a sign or none, digits, and something that does not continue them. -/
inductive Spec.StartsWithNumber : Bytes → Int → Prop where
  | plain (space digits rest : Bytes) : (∀ b ∈ space, isSpace b = true) → digits ≠ [] → (∀ b ∈ digits, isDigit b = true) →
      (∀ b, rest.head? = some b → isDigit b = false) → StartsWithNumber (space ++ (digits ++ rest)) (digitsVal digits)
  | plus (space digits rest : Bytes) : (∀ b ∈ space, isSpace b = true) → digits ≠ [] → (∀ b ∈ digits, isDigit b = true) →
      (∀ b, rest.head? = some b → isDigit b = false) → StartsWithNumber (space ++ 43 :: (digits ++ rest)) (digitsVal digits)
  | minus (space digits rest : Bytes) : (∀ b ∈ space, isSpace b = true) → digits ≠ [] → (∀ b ∈ digits, isDigit b = true) →
      (∀ b, rest.head? = some b → isDigit b = false) → StartsWithNumber (space ++ 45 :: (digits ++ rest)) (-(digitsVal digits : Int))

theorem dropSpace {space u : Bytes} (hs : ∀ b ∈ space, isSpace b = true) (hu : ∀ b, u.head? = some b → isSpace b = false) :
    (space ++ u).dropWhile isSpace = u := by
  rw [List.dropWhile_append_of_pos hs]
  cases u with
  | nil => rfl
  | cons b u => rw [List.dropWhile_cons_of_neg (by rw [hu b rfl]; simp)]

theorem takeDigits {ds rest : Bytes} (hd : ∀ b ∈ ds, isDigit b = true) (hr : ∀ b, rest.head? = some b → isDigit b = false) :
    (ds ++ rest).takeWhile isDigit = ds := by
  rw [List.takeWhile_append_of_pos hd]
  cases rest with
  | nil => simp
  | cons b u => rw [List.takeWhile_cons_of_neg (by rw [hr b rfl]; simp), List.append_nil]

theorem digit_facts {b : UInt8} (h : isDigit b = true) : isSpace b = false ∧ b ≠ 45 ∧ b ≠ 43 := by
  have h' : ∀ n < 256, isDigit (UInt8.ofNat n) = true → isSpace (UInt8.ofNat n) = false ∧ UInt8.ofNat n ≠ 45 ∧ UInt8.ofNat n ≠ 43 := by decide +kernel
  have := h' b.toNat b.toNat_lt
  rw [UInt8.ofNat_toNat] at this
  exact this h

theorem stoi_starts {t : Bytes} {n : Int} (h : Spec.StartsWithNumber t n) (hn : InInt32 n) : Tools.stoi t = some n := by
  have hn' : ¬ (n < -2147483648 ∨ 2147483647 < n) := by
    unfold InInt32 at hn
    omega
  cases h with
  | plain space digits rest h1 h2 h3 h4 =>
    cases digits with
    | nil => exact (h2 rfl).elim
    | cons d ds =>
      obtain ⟨e1, e2, e3⟩ := digit_facts (h3 d (List.mem_cons_self ..))
      have e : (space ++ (d :: ds ++ rest)).dropWhile isSpace = d :: ds ++ rest := dropSpace h1 (by intro b hb; cases hb; exact e1)
      have hk := takeDigits h3 h4
      have h45 : (d :: ds ++ rest).head? ≠ some 45 := by intro h; cases h; exact e2 rfl
      have h43 : (d :: ds ++ rest).head? ≠ some 43 := by intro h; cases h; exact e3 rfl
      unfold Tools.stoi
      simp only [e, h45, h43, or_self, ↓reduceIte, hk, hn', reduceCtorEq]
  | plus space digits rest h1 h2 h3 h4 =>
    have e : (space ++ 43 :: (digits ++ rest)).dropWhile isSpace = 43 :: (digits ++ rest) := dropSpace h1 (by intro b hb; cases hb; decide)
    have hk := takeDigits h3 h4
    unfold Tools.stoi
    simp only [e, List.head?_cons, or_true, ↓reduceIte, List.drop_succ_cons, List.drop_zero, hk, h2]
    rw [if_neg (by decide : ¬ (some (43 : UInt8) = some 45)), if_neg hn']
  | minus space digits rest h1 h2 h3 h4 =>
    have e : (space ++ 45 :: (digits ++ rest)).dropWhile isSpace = 45 :: (digits ++ rest) := dropSpace h1 (by intro b hb; cases hb; decide)
    have hk := takeDigits h3 h4
    unfold Tools.stoi
    simp only [e, List.head?_cons, true_or, ↓reduceIte, List.drop_succ_cons, List.drop_zero, hk, h2, hn']

/-- C74: what follows the number of `--id` is not looked at: the job with this number is cancelled. -/
theorem C74_cancel_number (w : World) (args : List Bytes) (uses : List Use) (addr : Bytes)
    (ha : Accounts [helpOpt, verboseOpt, idOpt] [addrArg] args uses [addr]) (hh : lastUse uses [ascii "-h", ascii "--help"] = none)
    (t : Bytes) (id : Int) (ht : word uses [ascii "--id"] = some t) (hs : Spec.StartsWithNumber t id) (hid : InInt32 id) :
    ∃ k, main w (ascii "cancel-job" :: args) = afterAttrs w addr k ∧ ∀ p, Fits p →
      ∃ m, Posts (k p).events m ∧ IsRequest p 8 [(ascii "job-id", (0x21, .int id))] [] m := by
  have hc : (ascii "cancel-job", [helpOpt, verboseOpt, idOpt], [addrArg]) ∈ commands := by simp [commands]
  obtain ⟨r, _, h2, h3⟩ := main_of (w := w) hc ha hh
  have hi := int_eq (command_opts hc).1 ha.uses (i := 2) (names := [ascii "--id"]) rfl
  refine ⟨_, h3, fun p hf => ?_⟩
  have e : command w p (ascii "cancel-job") r = (cancelJob (nextId w p) p id w.reply >>= fun a => pure (endOf w a)) := by
    rw [(command_eq w p r).2.2.2.2, h2, hi.2, ht]
    show cancelCommand w p (Tools.stoi t) = _
    rw [stoi_starts hs hid]
    rfl
  obtain ⟨m, bytes, h5, h6, h7⟩ := cancelJob_eq hf (nextId w p) id hid w.reply
  refine ⟨m, ⟨bytes, ?_, h6⟩, h5⟩
  show (command w p (ascii "cancel-job") r).events = _
  rw [e, bindPure, h7]

/-- another use of `--id` -/
def wrongId : Use := { option := 2, words := [ascii "--id", ascii "3x"], value := .num 3 }

/-- **C74, where it fails: wrong arguments are refused without a request.** `cancel-job --id 3x` cancels the job with number 3. -/
theorem C74_wrong_false : ∃ (args : List Bytes) (uses : List Use) (addr t : Bytes),
    Accounts [helpOpt, verboseOpt, idOpt] [addrArg] args uses [addr] ∧ lastUse uses [ascii "-h", ascii "--help"] = none ∧
    word uses [ascii "--id"] = some t ∧ (∀ id : Int, t ≠ intText id) ∧
    ∀ w, ∃ k, main w (ascii "cancel-job" :: args) = afterAttrs w addr k ∧ ∀ p, Fits p →
      ∃ m, Posts (k p).events m ∧ IsRequest p 8 [(ascii "job-id", (0x21, .int 3))] [] m := by
  have ha : Accounts [helpOpt, verboseOpt, idOpt] [addrArg] [ascii "--id", ascii "3x", ascii "ipp://p"] [wrongId] [ascii "ipp://p"] := by
    refine ⟨by decide +kernel, ?_, ?_, ?_, by decide +kernel⟩
    · intro u hu
      simp only [List.mem_cons, List.not_mem_nil, or_false] at hu
      subst hu
      exact isUse_of (name := ascii "--id") (w := ascii "3x") rfl rfl rfl rfl (by decide +kernel)
    · intro a ha
      cases ha
      have : ∀ o ∈ [helpOpt, verboseOpt, idOpt].map (·.names), ascii "ipp://p" ∉ o := by decide +kernel
      intro o ho
      exact this o.names (List.mem_map_of_mem ho)
    · intro i p hp hi
      match i, hp, hi with
      | 0, _, hi => simp at hi
      | i + 1, hp, _ => simp at hp
  have hw : word [wrongId] [ascii "--id"] = some (ascii "3x") := by decide +kernel
  refine ⟨_, _, _, ascii "3x", ha, rfl, hw, fun id e => ?_, fun w => ?_⟩
  · have h120 : (120 : UInt8) ∈ intText id := by rw [← e]; decide +kernel
    unfold intText at h120
    split at h120
    · rcases List.mem_cons.mp h120 with h | h
      · cases h
      · exact absurd (dec_digits _ _ h) (by decide)
    · exact absurd (dec_digits _ _ h120) (by decide)
  · have hs : Spec.StartsWithNumber (ascii "3x") 3 := by
      have : Spec.StartsWithNumber ([] ++ ([51] ++ [120])) (digitsVal [51]) := .plain [] [51] [120] (by simp) (by simp) (by decide) (by decide)
      exact this
    exact C74_cancel_number w _ _ _ ha rfl _ 3 hw hs (by unfold InInt32; decide)

end Verif.Client
