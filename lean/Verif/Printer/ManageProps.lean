import Verif.Printer.Manage
import Verif.Printer.RunProps
import Verif.Tools.Bsplit
import Verif.Ipp.Props
import Verif.Ipp.JsonProps

/-!
# Properties C68-C70: managing a printer
-/

namespace Verif.Printer

open Ipp Ipp.Spec Job Job.Spec

/-! ## Specification -/

namespace Spec

/-- The operation attributes of every request (RFC 8011, 4.1.4 and 4.1.5, and the name of the user). -/
def common (p : Printer) : List (Bytes × Attr) :=
  [(ascii "attributes-charset", (0x47, .str (ascii "utf-8"))),
   (ascii "attributes-natural-language", (0x48, .str (ascii "en-us"))),
   (ascii "printer-uri", (0x45, .str p.addr)),
   (ascii "requesting-user-name", (0x42, .str p.user))]

/-- `m` is a request to the printer for the operation `op` with these further operation attributes and these printer attributes, in IPP
2.0 if the printer has it, else in 1.1. -/
def IsRequest (p : Printer) (op : UInt16) (extra : List (Bytes × Attr)) (printerAttrs : Attrs) (m : Msg) : Prop :=
  m.opOrStatus = op ∧
  (Declares (KMap.get? p.attrs (ascii "ipp-versions-supported")) (.str (ascii "2.0")) → m.majVsn = 2 ∧ m.minVsn = 0) ∧
  (¬ Declares (KMap.get? p.attrs (ascii "ipp-versions-supported")) (.str (ascii "2.0")) → m.majVsn = 1 ∧ m.minVsn = 1) ∧
  KMap.Sorted m.opAttrs ∧ (∀ n a, (n, a) ∈ m.opAttrs ↔ (n, a) ∈ extra ++ common p) ∧
  (∀ g ∈ m.jobAttrs, g = []) ∧ m.printerAttrs = printerAttrs

/-- Exactly one request is sent: bytes that are read as `m` (groups without attributes are not on the wire). -/
def Posts (es : List Event) (m : Msg) : Prop :=
  ∃ bytes, es = [.post m bytes] ∧ decodeMsg bytes = .ok (withoutEmptyJobs m, [])

/-- Address and user name fit into a message; the versions of IPP are texts. -/
def Fits (p : Printer) : Prop :=
  p.addr.length < 65536 ∧ p.user.length < 65536 ∧
    ∀ v, Declares (KMap.get? p.attrs (ascii "ipp-versions-supported")) v → ∃ s, v = .str s

/-- A whole number in decimal. -/
def intText (i : Int) : Bytes := if i < 0 then 45 :: dec (-i).toNat else dec i.toNat

/-- The text is one of the value, for the type that the tag stands for: a number for integers and enums, true or false for booleans,
the text itself for texts, names, keywords, addresses, charsets, languages and media types. -/
def Spells (tag : UInt8) (text : Bytes) : Value → Prop
  | .int i => (tag = 0x21 ∨ tag = 0x23) ∧ InInt32 i ∧ text = intText i
  | .bool b => tag = 0x22 ∧ text = if b then ascii "true" else ascii "false"
  | .str s => tag ∈ stringTags ∧ tag ≠ 0x30 ∧ text = s
  | _ => False

/-- The last text given for a name. -/
def lastGiven (kvs : List (Bytes × Bytes)) (n : Bytes) : Option Bytes :=
  ((kvs.filter (fun e => decide (e.1 = n))).map Prod.snd).getLast?

/-- The value that a group of attributes of a message gives to a name: the first one. -/
def given (g : List (Bytes × Attr)) (n : Bytes) : Option Value :=
  (g.find? (fun e => decide (e.1 = n))).map (fun e => e.2.2)

/-- The job as the attributes in the group describe it; what is not given is 0 or empty. -/
def Describes (i : JobInfo) (g : List (Bytes × Attr)) : Prop :=
  (given g (ascii "job-id")).getD (.int 0) = .int i.id ∧ (given g (ascii "job-name")).getD (.str []) = .str i.name ∧
  (given g (ascii "job-state")).getD (.int 0) = .int i.state ∧
  (given g (ascii "job-printer-state-message")).getD (.str []) = .str i.stateMessage

/-- The attributes about a job have the types that they have in RFC 8011 (name and message in the charset of the message, without
language). -/
def JobTyped (g : List (Bytes × Attr)) : Prop :=
  (∀ v, given g (ascii "job-id") = some v → ∃ i, v = .int i) ∧ (∀ v, given g (ascii "job-name") = some v → ∃ s, v = .str s) ∧
  (∀ v, given g (ascii "job-state") = some v → ∃ i, v = .int i) ∧
  (∀ v, given g (ascii "job-printer-state-message") = some v → ∃ s, v = .str s)

/-- A reply on the wire: status and groups of attributes. -/
def response (maj min : UInt8) (status : UInt16) (id : Nat) (gs : List (UInt8 × List (Bytes × Attr))) : Bytes :=
  headerBytes maj min status id ++ (groupsBytes gs ++ [3])

end Spec

open Spec

/-! ## Requests -/

theorem strList_total {a : Attrs} {n : Bytes} (h : ∀ v, Declares (KMap.get? a n) v → ∃ s, v = .str s) :
    ∃ l, strList a n = .ok l ∧ ∀ s, s ∈ l ↔ Declares (KMap.get? a n) (.str s) := by
  unfold strList Attrs.getList
  cases hg : KMap.get? a n with
  | none => exact ⟨[], rfl, by simp [Declares]⟩
  | some x =>
    have h' : ∀ v ∈ asList x.2, ∃ s, v = .str s := fun v hv => h v (by rw [hg]; exact (declares_asList x v).mpr hv)
    have hty : ∀ v ∈ asList x.2, v.ty = some .str := fun v hv => by obtain ⟨s, rfl⟩ := h' v hv; rfl
    refine ⟨(asList x.2).map strOf, ?_, fun s => ?_⟩
    · show (getAll .str (asList x.2) >>= fun l => pure (l.map strOf)) = _
      rw [getAll_ok hty]; rfl
    · rw [declares_asList, List.mem_map]
      constructor
      · rintro ⟨v, hv, rfl⟩
        obtain ⟨s, rfl⟩ := h' v hv
        exact hv
      · intro hs; exact ⟨_, hs, rfl⟩

theorem common_eq (p : Printer) : common p = baseOpAttrs p.addr p.user := rfl

theorem sorted_base (p : Printer) : KMap.Sorted (common p) := by
  unfold KMap.Sorted common
  simp only [List.pairwise_cons, List.mem_cons, List.not_mem_nil, or_false, forall_eq_or_imp, forall_eq, false_implies, implies_true,
    List.Pairwise.nil]
  decide +kernel

theorem base_ok {p : Printer} (h : Fits p) {n : Bytes} {a : Attr} (hm : (n, a) ∈ common p) :
    n ≠ [] ∧ n.length < 65536 ∧ WellTyped true a.1 a.2 := by
  unfold common at hm
  simp only [List.mem_cons, List.not_mem_nil, or_false, Prod.mk.injEq] at hm
  rcases hm with ⟨rfl, rfl⟩ | ⟨rfl, rfl⟩ | ⟨rfl, rfl⟩ | ⟨rfl, rfl⟩
  · exact ⟨by decide, by decide, by simp only [WellTyped, PlainOk]; decide⟩
  · exact ⟨by decide, by decide, by simp only [WellTyped, PlainOk]; decide⟩
  · exact ⟨by decide, by decide, by simp only [WellTyped, PlainOk]; exact ⟨by decide, h.1⟩⟩
  · exact ⟨by decide, by decide, by simp only [WellTyped, PlainOk]; exact ⟨by decide, h.2.1⟩⟩

/-- The message of a request. -/
def requestMsg (p : Printer) (vs : List Bytes) (op : UInt16) (extra pa : Attrs) : Msg :=
  { majVsn := if vs.contains (ascii "2.0") then 2 else 1
    minVsn := if vs.contains (ascii "2.0") then 0 else 1
    opOrStatus := op
    opAttrs := KMap.insertAll extra (common p)
    jobAttrs := [[]]
    printerAttrs := pa }

/-- A request can be made and is on the wire what it is meant to be. -/
theorem request_ok {p : Printer} (h : Fits p) (op : UInt16) {extra pa : Attrs} (he : GroupOk extra) (hpa : GroupOk pa)
    (hd : ∀ n, KMap.get? extra n = none ∨ KMap.get? (common p) n = none) (reqId : Nat) :
    ∃ m bytes, mkMsg p op extra [] pa = .ok m ∧ IsRequest p op extra pa m ∧ encodeMsg reqId m = .ok bytes ∧
      decodeMsg bytes = .ok (withoutEmptyJobs m, []) := by
  obtain ⟨vs, hvs, hmem⟩ := strList_total h.2.2
  have hop : GroupOk (KMap.insertAll extra (common p)) := by
    refine ⟨KMap.sorted_insertAll he.1 _, fun n a hm => ?_⟩
    have := KMap.get?_of_mem (KMap.sorted_insertAll he.1 _) hm
    rw [KMap.get?_insertAll he.1] at this
    cases hg : KMap.get? extra n with
    | some x =>
      rw [hg] at this; cases this
      exact he.2 n a (KMap.mem_of_get? hg)
    | none =>
      rw [hg] at this
      exact base_ok h (KMap.mem_of_get? this)
  refine ⟨requestMsg p vs op extra pa, ?_⟩
  have hok : MsgOk (requestMsg p vs op extra pa) := by
    refine ⟨hop, fun g hg => ?_, hpa⟩
    obtain rfl := List.mem_singleton.mp hg
    exact ⟨KMap.sorted_nil, fun _ _ h => by cases h⟩
  obtain ⟨bytes, hb, hdec⟩ := C21_message_roundtrip_partial _ hok reqId [] (by simp)
  rw [List.append_nil] at hdec
  refine ⟨bytes, ?_, ⟨rfl, fun hv => ?_, fun hv => ?_, hop.1, fun n a => ?_, fun g hg => List.mem_singleton.mp hg, rfl⟩, hb, hdec⟩
  · unfold mkMsg; rw [hvs]; rfl
  · rw [← hmem] at hv; simp [requestMsg, hv]
  · rw [← hmem] at hv; simp [requestMsg, hv]
  · constructor
    · intro hm
      have := KMap.get?_of_mem hop.1 hm
      rw [KMap.get?_insertAll he.1] at this
      rw [List.mem_append]
      cases hg : KMap.get? extra n with
      | some x => rw [hg] at this; cases this; exact .inl (KMap.mem_of_get? hg)
      | none => rw [hg] at this; exact .inr (KMap.mem_of_get? this)
    · intro hm
      apply KMap.mem_of_get?
      show KMap.get? (KMap.insertAll extra (common p)) n = some a
      rw [KMap.get?_insertAll he.1]
      rcases List.mem_append.mp hm with hm | hm
      · rw [KMap.get?_of_mem he.1 hm]; rfl
      · have h2 := KMap.get?_of_mem (sorted_base p) hm
        rcases hd n with h1 | h1
        · rw [h1]; exact h2
        · rw [h1] at h2; cases h2

/-- What follows a request that can be sent. -/
theorem doRequest_then {α : Type} {reqId : Nat} {m : Msg} {bytes : Bytes} (h : encodeMsg reqId m = .ok bytes) (reply : Except Bytes Bytes)
    (f : Except Bytes Msg → Outcome α) :
    ((doRequest reqId m reply >>= fun r => Act.lift (f r)) : Act α) = ⟨[.post m bytes], received reply >>= f⟩ := by
  unfold doRequest
  rw [h, lift_bind_ok]
  show Act.bind (Act.emit [.post m bytes] >>= fun _ => Act.lift (received reply)) _ = _
  rw [emit_bind]
  unfold Act.bind Act.lift
  cases hr : received reply <;> simp

/-! ## C68: setting attributes -/

theorem stoi_intText {i : Int} (h : InInt32 i) : Tools.stoi (intText i) = some i := by
  unfold InInt32 at h
  unfold intText
  split
  · rw [Tools.stoi_neg (by omega)]; congr 1; omega
  · rw [Tools.stoi_dec (by omega)]; congr 1; omega

theorem fromString_spells {tag : UInt8} {text : Bytes} {v : Value} (h : Spells tag text v) : fromString text tag = .ok (tag, v) := by
  unfold fromString
  cases v with
  | int i =>
    obtain ⟨ht, hi, rfl⟩ := h
    rw [if_pos ht, stoi_intText hi]
  | bool b =>
    obtain ⟨rfl, rfl⟩ := h
    rw [if_neg (by decide), if_pos rfl]
    cases b <;> decide +kernel
  | str s =>
    obtain ⟨ht, hn, rfl⟩ := h
    simp only [stringTags, List.mem_cons, List.not_mem_nil, or_false] at ht
    have h3 : tag ∈ [0x35, 0x36, 0x41, 0x42, 0x44, 0x45, 0x46, 0x47, 0x48, 0x49] := by
      rcases ht with h | h
      · exact absurd h hn
      · simpa using h
    rw [if_neg, if_neg, if_pos h3]
    · rintro rfl; revert h3; decide
    · rintro (rfl | rfl) <;> (revert h3; decide)
  | _ => exact h.elim

theorem lastGiven_cons (k t : Bytes) (r : List (Bytes × Bytes)) (n : Bytes) :
    lastGiven ((k, t) :: r) n = (lastGiven r n).or (if k = n then some t else none) := by
  unfold lastGiven
  rw [List.filter_cons]
  by_cases h : k = n
  · simp only [h, decide_true, if_true, List.map_cons]
    rw [List.getLast?_cons]
    cases (List.map Prod.snd (List.filter (fun e => decide (e.1 = n)) r)).getLast? <;> rfl
  · simp [h]

/-- What the loop collects. -/
theorem toSet_get {pa : Attrs} {kvs : List (Bytes × Bytes)} {acc res : Attrs} (h : toSet pa kvs acc = .ok res)
    (hs : KMap.Sorted acc) :
    KMap.Sorted res ∧ ∀ n,
      (∀ t old, lastGiven kvs n = some t → KMap.get? pa n = some old → ∃ x, fromString t old.1 = .ok x ∧ KMap.get? res n = some x) ∧
      (lastGiven kvs n = none ∨ KMap.get? pa n = none → KMap.get? res n = KMap.get? acc n) := by
  induction kvs generalizing acc with
  | nil =>
    cases h
    exact ⟨hs, fun n => ⟨fun t old h => by simp [lastGiven] at h, fun _ => rfl⟩⟩
  | cons e r ih =>
    obtain ⟨k, t0⟩ := e
    rw [toSet] at h
    cases hk : KMap.get? pa k with
    | none =>
      rw [hk] at h
      obtain ⟨h1, h2⟩ := ih h hs
      refine ⟨h1, fun n => ⟨fun t old ht ho => ?_, fun hn => ?_⟩⟩
      · rw [lastGiven_cons] at ht
        have hne : k ≠ n := by rintro rfl; rw [hk] at ho; cases ho
        rw [if_neg hne, Option.or_none] at ht
        exact (h2 n).1 t old ht ho
      · refine (h2 n).2 ?_
        rcases hn with hn | hn
        · rw [lastGiven_cons, Option.or_eq_none_iff] at hn; exact .inl hn.1
        · exact .inr hn
    | some o =>
      rw [hk] at h
      rw [Outcome.bind_eq_ok] at h
      obtain ⟨x, hx, h⟩ := h
      obtain ⟨h1, h2⟩ := ih h (KMap.sorted_assign hs k x)
      refine ⟨h1, fun n => ⟨fun t old ht ho => ?_, fun hn => ?_⟩⟩
      · rw [lastGiven_cons] at ht
        cases hl : lastGiven r n with
        | some t' =>
          rw [hl] at ht
          cases ht
          exact (h2 n).1 t old hl ho
        | none =>
          rw [hl, Option.none_or] at ht
          by_cases hkn : k = n
          · subst hkn
            rw [if_pos rfl] at ht
            cases ht
            rw [hk] at ho
            cases ho
            refine ⟨x, hx, ?_⟩
            rw [(h2 k).2 (.inl hl), KMap.get?_assign_any, if_pos rfl]
          · rw [if_neg hkn] at ht; cases ht
      · have hne : n ≠ k := by
          rintro rfl
          rcases hn with hn | hn
          · rw [lastGiven_cons, Option.or_eq_none_iff, if_pos rfl] at hn; cases hn.2
          · rw [hk] at hn; cases hn
        rw [(h2 n).2 (hn.imp (fun hn => by rw [lastGiven_cons, Option.or_eq_none_iff] at hn; exact hn.1) id),
          KMap.get?_assign_any, if_neg hne]

theorem toSet_total {pa : Attrs} {kvs : List (Bytes × Bytes)}
    (h : ∀ n t, (n, t) ∈ kvs → ∀ old, KMap.get? pa n = some old → ∃ x, fromString t old.1 = .ok x) (acc : Attrs) :
    ∃ res, toSet pa kvs acc = .ok res := by
  induction kvs generalizing acc with
  | nil => exact ⟨acc, rfl⟩
  | cons e r ih =>
    obtain ⟨k, t⟩ := e
    have ih := ih (fun n t hm => h n t (List.mem_cons_of_mem _ hm))
    rw [toSet]
    cases hk : KMap.get? pa k with
    | none => exact ih acc
    | some o =>
      obtain ⟨x, hx⟩ := h k t (List.mem_cons_self ..) o hk
      obtain ⟨res, hr⟩ := ih (KMap.assign acc k x)
      exact ⟨res, by simp only [hx, Outcome.bind_ok]; exact hr⟩

theorem lastGiven_mem {kvs : List (Bytes × Bytes)} {n t : Bytes} (h : lastGiven kvs n = some t) : (n, t) ∈ kvs := by
  unfold lastGiven at h
  have := List.mem_of_getLast? h
  obtain ⟨⟨k, t'⟩, hm, rfl⟩ := List.mem_map.mp this
  obtain ⟨hm', hk⟩ := List.mem_filter.mp hm
  simp only [decide_eq_true_eq] at hk
  subst hk
  exact hm'

theorem spells_wellTyped {tag : UInt8} {t : Bytes} {v : Value} (h : Spells tag t v) (ht : t.length < 65536) : WellTyped true tag v := by
  cases v with
  | int i => simp only [WellTyped, PlainOk]; exact ⟨h.1, h.2.1⟩
  | bool b => simp only [WellTyped, PlainOk]; exact h.1
  | str s => simp only [WellTyped, PlainOk]; exact ⟨h.1, by rw [← h.2.2]; exact ht⟩
  | _ => exact h.elim

theorem spells_inj {tag : UInt8} {t : Bytes} {v w : Value} (h : Spells tag t v) (h' : Spells tag t w) : v = w := by
  have h1 := fromString_spells h
  rw [fromString_spells h'] at h1
  cases h1
  rfl

theorem noNames {p : Printer} : ∀ n, KMap.get? ([] : Attrs) n = none ∨ KMap.get? (common p) n = none := fun _ => .inl rfl

theorem groupOk_nil : GroupOk [] := ⟨KMap.sorted_nil, fun _ _ h => by cases h⟩

theorem sendAttributes_eq {p : Printer} (hf : Fits p) {a : Attrs} (ha : GroupOk a) (reqId : Nat) (reply : Except Bytes Bytes) :
    ∃ m bytes, IsRequest p 0x13 [] a m ∧ decodeMsg bytes = .ok (withoutEmptyJobs m, []) ∧
      sendAttributes reqId p a reply = ⟨[.post m bytes], received reply >>= fun r => pure (errorOf r)⟩ := by
  obtain ⟨m, bytes, h1, h2, h3, h4⟩ := request_ok hf 0x13 groupOk_nil ha noNames reqId
  refine ⟨m, bytes, h2, h4, ?_⟩
  unfold sendAttributes
  rw [h1, lift_bind_ok]
  exact doRequest_then h3 reply (fun r => pure (errorOf r))

/-- The full claim of C68: when no error is reported, the request asks for every value that was given, for a name that the printer
has or not. -/
def C68_full : Prop :=
  ∀ (reqId : Nat) (p : Printer) (kvs : List (Bytes × Bytes)) (reply : Except Bytes Bytes), Fits p →
    (setAttributes reqId p kvs reply).out = .ok none →
    ∃ m, Posts (setAttributes reqId p kvs reply).events m ∧ IsRequest p 0x13 [] m.printerAttrs m ∧
      ∀ n t, lastGiven kvs n = some t → ∃ tag v, KMap.get? m.printerAttrs n = some (tag, v) ∧ Spells tag t v

/-- C68, when every name given is one that the printer has, and every text spells a value of its type: one request is sent, to this
printer, for the operation Set-Printer-Attributes; it gives to every name the value that the last text given for it spells, with
the tag under which the printer has the attribute, and to no other name a value. What is missing: names that the printer does not
have (`C68_unknown_false`) and texts that only start like a number (`C68_trailing_false`). -/
theorem C68_set_partial (reqId : Nat) (p : Printer) (kvs : List (Bytes × Bytes)) (reply : Except Bytes Bytes) (hf : Fits p)
    (h : ∀ n t, (n, t) ∈ kvs → n ≠ [] ∧ n.length < 65536 ∧ t.length < 65536 ∧
      ∃ old v, KMap.get? p.attrs n = some old ∧ Spells old.1 t v) :
    ∃ m, Posts (setAttributes reqId p kvs reply).events m ∧ IsRequest p 0x13 [] m.printerAttrs m ∧
      ∀ n tag v, KMap.get? m.printerAttrs n = some (tag, v) ↔
        ∃ t old, lastGiven kvs n = some t ∧ KMap.get? p.attrs n = some old ∧ tag = old.1 ∧ Spells old.1 t v := by
  obtain ⟨res, hres⟩ := toSet_total (pa := p.attrs) (kvs := kvs) (fun n t hm old ho => by
    obtain ⟨_, _, _, old', v, ho', hv⟩ := h n t hm
    rw [ho] at ho'; cases ho'
    exact ⟨_, fromString_spells hv⟩) []
  obtain ⟨hs, hg⟩ := toSet_get hres KMap.sorted_nil
  have key : ∀ n tag v, KMap.get? res n = some (tag, v) ↔
        ∃ t old, lastGiven kvs n = some t ∧ KMap.get? p.attrs n = some old ∧ tag = old.1 ∧ Spells old.1 t v := by
    intro n tag v
    constructor
    · intro hr
      cases hl : lastGiven kvs n with
      | none => rw [(hg n).2 (.inl hl)] at hr; cases hr
      | some t =>
        obtain ⟨_, _, _, old, v', ho, hv⟩ := h n t (lastGiven_mem hl)
        obtain ⟨x, hx, hr'⟩ := (hg n).1 t old hl ho
        rw [fromString_spells hv] at hx
        cases hx
        rw [hr] at hr'
        cases hr'
        exact ⟨t, old, rfl, ho, rfl, hv⟩
    · rintro ⟨t, old, hl, ho, rfl, hv⟩
      obtain ⟨x, hx, hr⟩ := (hg n).1 t old hl ho
      rw [fromString_spells hv] at hx
      cases hx
      exact hr
  have hok : GroupOk res := by
    refine ⟨hs, fun n a hm => ?_⟩
    obtain ⟨t, old, hl, ho, h1, hv⟩ := (key n a.1 a.2).mp (KMap.get?_of_mem hs hm)
    obtain ⟨h2, h3, h4, _⟩ := h n t (lastGiven_mem hl)
    exact ⟨h2, h3, by rw [h1]; exact spells_wellTyped hv h4⟩
  obtain ⟨m, bytes, h1, h2, h3⟩ := sendAttributes_eq hf hok reqId reply
  have he : setAttributes reqId p kvs reply = sendAttributes reqId p res reply := by unfold setAttributes; rw [hres]
  have hp : m.printerAttrs = res := h1.2.2.2.2.2.2
  refine ⟨m, ⟨bytes, by rw [he, h3], h2⟩, by rw [hp]; exact h1, by rw [hp]; exact key⟩

/-- A printer for the examples: an attribute of each kind that can be set. -/
def managedPrinter : Printer :=
  { addr := ascii "http://printer:631/ipp/print", user := ascii "me"
    attrs := [(ascii "ipp-versions-supported", (0x44, .set [.str (ascii "1.1"), .str (ascii "2.0")])),
      (ascii "printer-is-accepting-jobs", (0x22, .bool true)), (ascii "printer-location", (0x41, .str (ascii "hall"))),
      (ascii "printer-name", (0x42, .str (ascii "p"))), (ascii "sleep-time", (0x21, .int 5))] }

theorem managedPrinter_fits : Fits managedPrinter := by
  refine ⟨by decide, by decide, fun v hv => ?_⟩
  have : KMap.get? managedPrinter.attrs (ascii "ipp-versions-supported") =
    some (0x44, .set [.str (ascii "1.1"), .str (ascii "2.0")]) := by decide +kernel
  rw [this] at hv
  simp only [Declares, List.mem_cons, List.not_mem_nil, or_false] at hv
  rcases hv with rfl | rfl <;> exact ⟨_, rfl⟩

example : Fits managedPrinter ∧ ∀ n t, (n, t) ∈ [(ascii "sleep-time", ascii "-17"), (ascii "printer-location", ascii "cellar"),
    (ascii "printer-is-accepting-jobs", ascii "false"), (ascii "printer-location", ascii "")] →
    n ≠ [] ∧ n.length < 65536 ∧ t.length < 65536 ∧ ∃ old v, KMap.get? managedPrinter.attrs n = some old ∧ Spells old.1 t v := by
  refine ⟨managedPrinter_fits, fun n t h => ?_⟩
  simp only [List.mem_cons, List.not_mem_nil, or_false, Prod.mk.injEq] at h
  rcases h with ⟨rfl, rfl⟩ | ⟨rfl, rfl⟩ | ⟨rfl, rfl⟩ | ⟨rfl, rfl⟩
  · exact ⟨by decide, by decide, by decide, (0x21, .int 5), .int (-17), by decide +kernel, .inl rfl, by unfold InInt32; decide, by decide +kernel⟩
  · exact ⟨by decide, by decide, by decide, (0x41, .str (ascii "hall")), .str (ascii "cellar"), by decide +kernel, by decide, by decide, rfl⟩
  · exact ⟨by decide, by decide, by decide, (0x22, .bool true), .bool false, by decide +kernel, rfl, rfl⟩
  · exact ⟨by decide, by decide, by decide, (0x41, .str (ascii "hall")), .str [], by decide +kernel, by decide, by decide, rfl⟩

/-- C68: when a text given for an attribute that the printer has spells no value of its type - it is no number at all, neither true nor
false, or the type is one for which no texts are read - then an error is reported and no request is sent. -/
theorem C68_refuses (reqId : Nat) (p : Printer) (kvs : List (Bytes × Bytes)) (reply : Except Bytes Bytes) (n t : Bytes) (old : Attr)
    (hm : (n, t) ∈ kvs) (ho : KMap.get? p.attrs n = some old)
    (h : (old.1 = 0x22 ∧ t ≠ ascii "true" ∧ t ≠ ascii "false") ∨
      ((old.1 = 0x21 ∨ old.1 = 0x23) ∧ ∀ b, t.head? = some b → isDigit b = false ∧ isSpace b = false ∧ b ≠ 43 ∧ b ≠ 45) ∨
      (old.1 ≠ 0x21 ∧ old.1 ≠ 0x22 ∧ old.1 ≠ 0x23 ∧ (old.1 ∉ stringTags ∨ old.1 = 0x30))) :
    (setAttributes reqId p kvs reply).events = [] ∧ ∃ e, (setAttributes reqId p kvs reply).out = .ok (some e) := by
  have hbad : ∃ e, fromString t old.1 = .throws e := by
    unfold fromString
    rcases h with ⟨h1, h2, h3⟩ | ⟨h1, h2⟩ | ⟨h1, h2, h3, h4⟩
    · rw [h1]
      exact ⟨.outOfRange, by rw [if_neg (by decide), if_pos rfl, if_neg h2, if_neg h3]⟩
    · refine ⟨.invalidArgument, ?_⟩
      rw [if_pos h1]
      have : Tools.stoi t = none := by
        unfold Tools.stoi
        cases t with
        | nil => rfl
        | cons b r =>
          obtain ⟨h5, h6, h7, h8⟩ := h2 b rfl
          have e1 : List.dropWhile isSpace (b :: r) = b :: r := by rw [List.dropWhile_cons, if_neg (by simp [h6])]
          simp [e1, h7, h8, h5]
      rw [this]
    · refine ⟨.logicError, ?_⟩
      rw [if_neg (by rintro (h | h); exacts [h1 h, h3 h]), if_neg h2, if_neg]
      intro h5
      have h6 : old.1 ∈ stringTags := by
        simp only [stringTags, List.mem_cons, List.not_mem_nil, or_false] at h5 ⊢
        exact .inr h5
      rcases h4 with h4 | h4
      · exact h4 h6
      · rw [h4] at h5; revert h5; decide
  have key : ∀ acc, ∃ e, toSet p.attrs kvs acc = .throws e := by
    induction kvs with
    | nil => cases hm
    | cons e r ih =>
      intro acc
      obtain ⟨k, t'⟩ := e
      rw [toSet]
      rcases List.mem_cons.mp hm with hm | hm
      · cases hm
        rw [ho]
        obtain ⟨e, he⟩ := hbad
        exact ⟨e, by simp only [he]; rfl⟩
      · cases hk : KMap.get? p.attrs k with
        | none => exact ih hm acc
        | some o =>
          have hcases : (∃ x, fromString t' o.1 = .ok x) ∨ ∃ e, fromString t' o.1 = .throws e := by
            unfold fromString
            repeat' split
            all_goals first | exact .inl ⟨_, rfl⟩ | exact .inr ⟨_, rfl⟩
          rcases hcases with ⟨x, hx⟩ | ⟨e, he⟩
          · obtain ⟨e, he⟩ := ih hm (KMap.assign acc k x)
            exact ⟨e, by simp only [hx, Outcome.bind_ok]; exact he⟩
          · exact ⟨e, by simp only [he]; rfl⟩
  obtain ⟨e, he⟩ := key []
  have : setAttributes reqId p kvs reply = pure (some []) := by unfold setAttributes; rw [he]
  rw [this]
  exact ⟨rfl, [], rfl⟩

example : KMap.get? managedPrinter.attrs (ascii "printer-is-accepting-jobs") = some (0x22, .bool true) ∧
    ((0x22 : UInt8) = 0x22 ∧ ascii "yes" ≠ ascii "true" ∧ ascii "yes" ≠ ascii "false") := by decide +kernel

/-- A successful reply without attributes. -/
def okReply : Bytes := response 2 0 0 1 []

/-- C68 is false: a name that the printer does not have is left out, and no error reported. -/
theorem C68_unknown_false : ¬ C68_full := by
  intro h
  obtain ⟨m, ⟨b, h1, _⟩, _, h2⟩ := h 1 managedPrinter [(ascii "printer-lokation", ascii "cellar")] (.ok okReply) managedPrinter_fits
    (by decide +kernel)
  obtain ⟨tag, v, h3, _⟩ := h2 (ascii "printer-lokation") (ascii "cellar") (by decide +kernel)
  have : (setAttributes 1 managedPrinter [(ascii "printer-lokation", ascii "cellar")] (.ok okReply)).events.filterMap request =
    [{ majVsn := 2, minVsn := 0, opOrStatus := 0x13, opAttrs := common managedPrinter, jobAttrs := [[]], printerAttrs := [] }] := by
    decide +kernel
  rw [h1] at this
  have hm : m = _ := (List.cons.inj this).1
  rw [hm] at h3
  cases h3

/-- C68 is false: of "30 minutes" for a number, 30 is set, and no error reported. -/
theorem C68_trailing_false : ¬ C68_full := by
  intro h
  obtain ⟨m, ⟨b, h1, _⟩, _, h2⟩ := h 1 managedPrinter [(ascii "sleep-time", ascii "30 minutes")] (.ok okReply) managedPrinter_fits
    (by decide +kernel)
  obtain ⟨tag, v, h3, h4⟩ := h2 (ascii "sleep-time") (ascii "30 minutes") (by decide +kernel)
  have : (setAttributes 1 managedPrinter [(ascii "sleep-time", ascii "30 minutes")] (.ok okReply)).events.filterMap request =
    [{ majVsn := 2, minVsn := 0, opOrStatus := 0x13, opAttrs := common managedPrinter, jobAttrs := [[]],
       printerAttrs := [(ascii "sleep-time", (0x21, .int 30))] }] := by decide +kernel
  rw [h1] at this
  have hm : m = _ := (List.cons.inj this).1
  rw [hm] at h3
  have h5 : KMap.get? [(ascii "sleep-time", ((0x21 : UInt8), Value.int 30))] (ascii "sleep-time") = some (0x21, .int 30) := by
    decide +kernel
  rw [h5] at h3
  cases h3
  have h6 := h4.2.2
  exact absurd h6 (by decide +kernel)

end Verif.Printer
