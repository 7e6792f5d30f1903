import Verif.Printer.JobListProps
import Verif.Ipp.SaveProps

/-!
# Properties C71 and C72: the attributes of a printer, overridden attributes, and guessed formats
-/

namespace Verif.Printer

open Ipp Ipp.Spec Job Job.Spec Spec

/-! ## Specification -/

namespace Spec

/-- Rules for overriding attributes: for the name of an attribute and a value, the attributes that a printer with this value gets
instead of its own. -/
abbrev Rules := KMap (KMap Attrs)

/-- The rules in the file. -/
def rulesJson (rules : Rules) : Json := .obj (rules.map (fun e => (e.1, .obj (e.2.map (fun r => (r.1, attrsToJson r.2))))))

/-- Names and values in order and without repetition, as in a JSON object; attributes that can be in a JSON file. -/
def RulesOk (rules : Rules) : Prop :=
  KMap.Sorted rules ∧ ∀ n vs, (n, vs) ∈ rules → KMap.Sorted vs ∧ ∀ v o, (v, o) ∈ vs → GroupOk o ∧ ∀ k a, (k, a) ∈ o → noDate a.2 = true

/-- The attributes that a rule for the name `n` has for a printer with these attributes. -/
def ruleFor (attrs : Attrs) (n : Bytes) (vs : KMap Attrs) : Option Attrs :=
  match KMap.get? attrs n with
  | some (_, .str v) => KMap.get? vs v
  | _ => none

/-- The attribute that the rules set for the name `k`: by the last rule that is for this printer and has the name. -/
def overriding (rules : Rules) (attrs : Attrs) (k : Bytes) : Option Attr :=
  (rules.filterMap (fun e => (ruleFor attrs e.1 e.2).bind (fun o => KMap.get? o k))).getLast?

/-- The rules that are in force. -/
def InForce (files : Files) (rules : Rules) : Prop :=
  (files.overrides = none ∧ rules = []) ∨ ∃ text, files.overrides = some text ∧ files.parse text = .ok (rulesJson rules)

/-- No rule for a printer with these attributes changes an attribute by which rules are chosen, and these attributes are texts. -/
def Plain (rules : Rules) (attrs : Attrs) : Prop :=
  ∀ n vs, (n, vs) ∈ rules → (∀ a, KMap.get? attrs n = some a → ∃ s, a.2 = .str s) ∧
    ∀ o, ruleFor attrs n vs = some o → ∀ n' vs', (n', vs') ∈ rules → KMap.get? o n' = none

/-- The formats that can be guessed, and the names by which they occur in a device id. -/
def formatNames : List (Bytes × List Bytes) :=
  [(ascii "application/pdf", [ascii "PDF"]), (ascii "application/postscript", [ascii "POSTSCRIPT", ascii "PostScript"]),
   (ascii "image/pwg-raster", [ascii "PWG"]), (ascii "image/urf", [ascii "URF", ascii "AppleRaster"])]

end Spec

/-! ## C71 -/

theorem json_back {o : Attrs} (h : GroupOk o ∧ ∀ k a, (k, a) ∈ o → noDate a.2 = true) : attrsFromJson (attrsToJson o) = .ok o :=
  C26_json_group_partial o h.1 h.2

theorem overrideValues_none {n : Bytes} {a : Attrs} (h : KMap.get? a n = none) (l : List (Bytes × Json)) :
    overrideValues n l a = (a, .ok ()) := by
  induction l with
  | nil => rfl
  | cons e l ih => rw [overrideValues]; simp only [h]; exact ih

theorem overrideValues_str {n s : Bytes} {tag : UInt8} {vs : KMap Attrs} (hvs : KMap.Sorted vs)
    (hok : ∀ v o, (v, o) ∈ vs → GroupOk o ∧ ∀ k a, (k, a) ∈ o → noDate a.2 = true)
    (hn : ∀ o, KMap.get? vs s = some o → KMap.get? o n = none) {a : Attrs} (ha : KMap.Sorted a)
    (h : KMap.get? a n = some (tag, .str s)) :
    overrideValues n (vs.map (fun r => (r.1, attrsToJson r.2))) a =
      (match KMap.get? vs s with | some o => assignAll a o | none => a, .ok ()) := by
  induction vs generalizing a with
  | nil => rfl
  | cons e vs ih =>
    obtain ⟨v, o⟩ := e
    rw [List.map_cons, overrideValues]
    simp only [h]
    have hok' := fun v o hm => hok v o (List.mem_cons_of_mem _ hm)
    by_cases hv : s = v
    · subst hv
      have hg : KMap.get? ((s, o) :: vs) s = some o := by simp [KMap.get?]
      have hno : KMap.get? vs s = none := KMap.get?_none_of_lt (fun e he => (List.pairwise_cons.mp hvs).1 e he)
      rw [if_pos rfl, json_back (hok s o (List.mem_cons_self ..)), hg]
      simp only []
      have hos := (hok s o (List.mem_cons_self ..)).1.1
      rw [ih hvs.tail hok' (by rw [hno]; intro o h; cases h) (sorted_assignAll ha o)
        (by rw [get?_assignAll ha hos, hn o hg]; exact h), hno]
    · rw [if_neg hv]
      have hg : KMap.get? ((v, o) :: vs) s = KMap.get? vs s := by simp [KMap.get?, hv]
      rw [hg]
      rw [hg] at hn
      exact ih hvs.tail hok' hn ha h

theorem ruleFor_str {attrs : Attrs} {n s : Bytes} {tag : UInt8} (h : KMap.get? attrs n = some (tag, .str s)) (vs : KMap Attrs) :
    ruleFor attrs n vs = KMap.get? vs s := by
  unfold ruleFor; rw [h]

theorem ruleFor_none {attrs : Attrs} {n : Bytes} (h : KMap.get? attrs n = none) (vs : KMap Attrs) : ruleFor attrs n vs = none := by
  unfold ruleFor; rw [h]

theorem overriding_cons (n : Bytes) (vs : KMap Attrs) (rules : Rules) (attrs : Attrs) (k : Bytes) :
    overriding ((n, vs) :: rules) attrs k =
      (overriding rules attrs k).or ((ruleFor attrs n vs).bind (fun o => KMap.get? o k)) := by
  unfold overriding
  rw [List.filterMap_cons]
  cases h : (ruleFor attrs n vs).bind (fun o => KMap.get? o k) with
  | none => simp
  | some x =>
    simp only []
    rw [List.getLast?_cons]
    cases (List.filterMap (fun e => (ruleFor attrs e.1 e.2).bind (fun o => KMap.get? o k)) rules).getLast? <;> rfl

theorem overrideAll_get {rules : Rules} (hr : RulesOk rules) {attrs a : Attrs} (ha : KMap.Sorted a) (hp : Plain rules attrs)
    (hsame : ∀ n vs, (n, vs) ∈ rules → KMap.get? a n = KMap.get? attrs n) :
    ∃ res, overrideAll (rulesJson rules).objectItems a = (res, .ok ()) ∧ KMap.Sorted res ∧
      ∀ k, KMap.get? res k = (overriding rules attrs k).or (KMap.get? a k) := by
  induction rules generalizing a with
  | nil => exact ⟨a, rfl, ha, fun k => by simp [overriding]⟩
  | cons e rules ih =>
    obtain ⟨n, vs⟩ := e
    have hr' : RulesOk rules := ⟨hr.1.tail, fun n vs hm => hr.2 n vs (List.mem_cons_of_mem _ hm)⟩
    have hp' : Plain rules attrs := fun n vs hm =>
      ⟨(hp n vs (List.mem_cons_of_mem _ hm)).1, fun o ho n' vs' hm' =>
        (hp n vs (List.mem_cons_of_mem _ hm)).2 o ho n' vs' (List.mem_cons_of_mem _ hm')⟩
    obtain ⟨hvs, hok⟩ := hr.2 n vs (List.mem_cons_self ..)
    obtain ⟨hstr, hno⟩ := hp n vs (List.mem_cons_self ..)
    have hsn := hsame n vs (List.mem_cons_self ..)
    have hitems : (rulesJson ((n, vs) :: rules)).objectItems =
      (n, .obj (vs.map (fun r => (r.1, attrsToJson r.2)))) :: (rulesJson rules).objectItems := rfl
    rw [hitems, overrideAll]
    simp only [Json.objectItems]
    cases hg : KMap.get? attrs n with
    | none =>
      rw [overrideValues_none (by rw [hsn]; exact hg)]
      simp only []
      obtain ⟨res, h1, h2, h3⟩ := ih hr' ha hp' (fun n vs hm => hsame n vs (List.mem_cons_of_mem _ hm))
      refine ⟨res, h1, h2, fun k => ?_⟩
      rw [h3 k, overriding_cons, ruleFor_none hg]
      simp
    | some x =>
      obtain ⟨tag, v⟩ := x
      obtain ⟨s, hs⟩ := hstr _ hg
      simp only at hs
      subst hs
      have hrf := ruleFor_str hg vs
      rw [overrideValues_str hvs hok (fun o ho => hno o (by rw [hrf]; exact ho) n vs (List.mem_cons_self ..)) ha
        (by rw [hsn]; exact hg)]
      simp only []
      cases ho : KMap.get? vs s with
      | none =>
        simp only []
        obtain ⟨res, h1, h2, h3⟩ := ih hr' ha hp' (fun n vs hm => hsame n vs (List.mem_cons_of_mem _ hm))
        refine ⟨res, h1, h2, fun k => ?_⟩
        rw [h3 k, overriding_cons, hrf, ho]
        simp
      | some o =>
        simp only []
        have hos := (hok s o (KMap.mem_of_get? ho)).1.1
        obtain ⟨res, h1, h2, h3⟩ := ih hr' (sorted_assignAll ha o) hp' (fun n' vs' hm => by
          rw [get?_assignAll ha hos, hno o (by rw [hrf]; exact ho) n' vs' (List.mem_cons_of_mem _ hm)]
          exact hsame n' vs' (List.mem_cons_of_mem _ hm))
        refine ⟨res, h1, h2, fun k => ?_⟩
        rw [h3 k, overriding_cons, hrf, ho, get?_assignAll ha hos]
        cases overriding rules attrs k <;> simp

/-- The full claim on overriding: every attribute is that of the last rule for the printer that has it, else that of the printer. -/
def C71_overrides_full : Prop :=
  ∀ (files : Files) (rules : Rules) (attrs : Attrs), InForce files rules → RulesOk rules → KMap.Sorted attrs →
    ∃ res, applyOverrides files attrs = .ok res ∧ ∀ k, KMap.get? res k = (overriding rules attrs k).or (KMap.get? attrs k)

/-- C71, overriding: when the attributes by which rules are chosen are texts that no rule for this printer changes, then every attribute
is afterwards that of the last rule for the printer that has it, and if no rule has it unchanged. What is missing: rules that are
chosen by an attribute with several values (`C71_list_false`) and rules that change what other rules are chosen by
(`C71_chain_false`). -/
theorem C71_overrides_partial (files : Files) (rules : Rules) (attrs : Attrs) (hf : InForce files rules) (hr : RulesOk rules)
    (hs : KMap.Sorted attrs) (hp : Plain rules attrs) :
    ∃ res, applyOverrides files attrs = .ok res ∧ KMap.Sorted res ∧
      ∀ k, KMap.get? res k = (overriding rules attrs k).or (KMap.get? attrs k) := by
  unfold applyOverrides
  rcases hf with ⟨h1, rfl⟩ | ⟨text, h1, h2⟩
  · rw [h1]
    exact ⟨attrs, rfl, hs, fun k => by simp [overriding]⟩
  · rw [h1]
    simp only [h2]
    obtain ⟨res, h3, h4, h5⟩ := overrideAll_get hr hs hp (fun _ _ _ => rfl)
    refine ⟨res, ?_, h4, h5⟩
    rw [h3]

theorem overrideAll_nil (l : List (Bytes × Json)) : overrideAll l [] = ([], .ok ()) := by
  induction l with
  | nil => rfl
  | cons e l ih =>
    rw [overrideAll, overrideValues_none rfl]
    exact ih

/-- A printer without attributes stays one. -/
theorem applyOverrides_nil (files : Files) : applyOverrides files [] = .ok [] := by
  unfold applyOverrides
  cases files.overrides with
  | none => rfl
  | some text =>
    simp only []
    cases files.parse text with
    | error e => rfl
    | ok j => simp only [overrideAll_nil]

theorem refresh_eq {p : Printer} (hf : Fits p) (hn : ¬ IsFile p) (files : Files) (reqId : Nat) (reply : Except Bytes Bytes) :
    ∃ m bytes, IsRequest p 0xb [] [] m ∧ decodeMsg bytes = .ok (withoutEmptyJobs m, []) ∧
      refresh files reqId p reply = ⟨[.post m bytes], received reply >>= fun r => applyOverrides files (replyAttrs r) >>= fun a =>
        pure (errorOf r, { p with attrs := a })⟩ := by
  obtain ⟨m, bytes, h1, h2, h3⟩ := request_then hf 0xb groupOk_nil noNames reqId reply (fun r =>
    applyOverrides files (replyAttrs r) >>= fun a => pure (errorOf r, { p with attrs := a }))
  refine ⟨m, bytes, h1, h2, ?_⟩
  have hn' : ¬ Text.startsWith p.addr (ascii "file://") = true := fun h => hn ((startsWith_file p).mp h)
  unfold refresh
  rw [if_neg hn', ← h3]
  congr 1
  funext m
  congr 1
  funext r
  cases applyOverrides files (replyAttrs r) <;> rfl

/-- C71: for every reply of the printer that can be read, the printer has afterwards the attributes of the (last) group of printer
attributes in the reply, except for those that rules override; and no error is reported. The request is Get-Printer-Attributes. -/
theorem C71_refresh (files : Files) (rules : Rules) (reqId : Nat) (p : Printer) (hf : Fits p) (hn : ¬ IsFile p)
    (gs : List (UInt8 × List (Bytes × Attr))) (h : ∀ g ∈ gs, RecvOk g) (maj min : UInt8) (status : UInt16) (rid : Nat)
    (hi : InForce files rules) (hr : RulesOk rules) (attrs : Attrs) (ha : Reports attrs (lastOfTag 4 gs)) (hp : Plain rules attrs) :
    (∃ m, Posts (refresh files reqId p (.ok (response maj min status rid gs))).events m ∧ IsRequest p 0xb [] [] m) ∧
    ∃ res, (refresh files reqId p (.ok (response maj min status rid gs))).out = .ok (none, { p with attrs := res }) ∧
      ∀ k, KMap.get? res k = (overriding rules attrs k).or (KMap.get? attrs k) := by
  obtain ⟨m, bytes, h1, h2, h3⟩ := refresh_eq hf hn files reqId (.ok (response maj min status rid gs))
  obtain ⟨r, h4, _, _, _, h5⟩ := received_response h maj min status rid
  have he : r.printerAttrs = attrs := KMap.ext h5.1 ha.1 (fun k => by rw [h5.2, ha.2])
  obtain ⟨res, h6, _, h7⟩ := C71_overrides_partial files rules attrs hi hr ha.1 hp
  refine ⟨⟨m, ⟨bytes, by rw [h3], h2⟩, h1⟩, res, ?_, h7⟩
  rw [h3, h4]
  simp only [Outcome.bind_ok, replyAttrs, errorOf, he, h6]
  rfl

/-- C71: a printer that cannot be reached has afterwards no attributes, whatever the rules, and the failure is reported. -/
theorem C71_unreachable (files : Files) (reqId : Nat) (p : Printer) (hf : Fits p) (hn : ¬ IsFile p) (text : Bytes) :
    (refresh files reqId p (.error text)).out = .ok (some text, { p with attrs := [] }) := by
  obtain ⟨m, bytes, _, _, h3⟩ := refresh_eq hf hn files reqId (.error text)
  rw [h3]
  show (applyOverrides files [] >>= fun a => pure (some text, { p with attrs := a })) = _
  rw [applyOverrides_nil]
  rfl

/-- C71: the attributes of a printer, written as JSON (`get-attrs`) into a file, are those of the fake printer with this file. -/
theorem C71_fake_json (files : Files) (rules : Rules) (reqId : Nat) (p : Printer) (name text : Bytes) (attrs : Attrs)
    (hn : p.addr = ascii "file://" ++ name) (ht : files.read name = some (123 :: text))
    (hj : files.parse (123 :: text) = .ok (attrsToJson attrs)) (hok : GroupOk attrs) (hd : ∀ k a, (k, a) ∈ attrs → noDate a.2 = true)
    (hi : InForce files rules) (hr : RulesOk rules) (hp : Plain rules attrs) (reply : Except Bytes Bytes) :
    (refresh files reqId p reply).events = [] ∧
    ∃ res, (refresh files reqId p reply).out = .ok (none, { p with attrs := res }) ∧
      ∀ k, KMap.get? res k = (overriding rules attrs k).or (KMap.get? attrs k) := by
  have hs : Text.startsWith p.addr (ascii "file://") = true := (startsWith_file p).mpr ⟨name, hn.symm⟩
  obtain ⟨res, h6, _, h7⟩ := C71_overrides_partial files rules attrs hi hr hok.1 hp
  have hdrop : p.addr.drop 7 = name := by rw [hn]; rfl
  unfold refresh
  rw [if_pos hs]
  refine ⟨rfl, res, ?_, h7⟩
  show refreshFromFile files p = _
  unfold refreshFromFile fakeAttrs
  rw [hdrop, ht]
  simp only [if_true, hj, json_back ⟨hok, hd⟩, Outcome.bind_ok, h6]
  rfl

/-- C71: the same for a file with a message of a printer. -/
theorem C71_fake_message (files : Files) (rules : Rules) (reqId : Nat) (p : Printer) (name : Bytes)
    (gs : List (UInt8 × List (Bytes × Attr))) (h : ∀ g ∈ gs, RecvOk g) (maj min : UInt8) (hm : maj ≠ 123) (status : UInt16) (rid : Nat)
    (hn : p.addr = ascii "file://" ++ name) (ht : files.read name = some (response maj min status rid gs)) (attrs : Attrs)
    (ha : Reports attrs (lastOfTag 4 gs))
    (hi : InForce files rules) (hr : RulesOk rules) (hp : Plain rules attrs) (reply : Except Bytes Bytes) :
    (refresh files reqId p reply).events = [] ∧
    ∃ res, (refresh files reqId p reply).out = .ok (none, { p with attrs := res }) ∧
      ∀ k, KMap.get? res k = (overriding rules attrs k).or (KMap.get? attrs k) := by
  have hs : Text.startsWith p.addr (ascii "file://") = true := (startsWith_file p).mpr ⟨name, hn.symm⟩
  obtain ⟨res, h6, _, h7⟩ := C71_overrides_partial files rules attrs hi hr ha.1 hp
  have hdrop : p.addr.drop 7 = name := by rw [hn]; rfl
  obtain ⟨m, h1, _, _, _, _, _, h5⟩ := C24_groups_partial gs h maj min status rid [] (by simp)
  have he : m.printerAttrs = attrs := KMap.ext h5.1 ha.1 (fun k => by rw [h5.2, ha.2])
  have h1 : decodeMsg (response maj min status rid gs) = .ok (m, []) := h1
  obtain ⟨r, hcons⟩ : ∃ r, response maj min status rid gs = maj :: r := ⟨_, rfl⟩
  unfold refresh
  rw [if_pos hs]
  refine ⟨rfl, res, ?_, h7⟩
  show refreshFromFile files p = _
  unfold refreshFromFile fakeAttrs
  rw [hdrop, ht]
  rw [hcons] at h1 ⊢
  simp only [if_neg hm, h1, Outcome.bind_ok, he, h6]
  rfl

theorem decodeMsg_short {text : Bytes} (h : text.length < 8) : ∃ e, decodeMsg text = .throws e := by
  rcases text with _ | ⟨a, _ | ⟨b, _ | ⟨c, _ | ⟨d, _ | ⟨e, _ | ⟨f, _ | ⟨g, _ | ⟨_, _⟩⟩⟩⟩⟩⟩⟩⟩
  all_goals first | exact ⟨_, rfl⟩ | (simp only [List.length_cons] at h; omega)

/-- C71: a fake printer's file which is not there, is no JSON although it starts like it, or is too short for a message, is reported, and the printer is as before (if it
had no attributes: without them). -/
theorem C71_fake_wrong (files : Files) (reqId : Nat) (p : Printer) (name : Bytes) (hn : p.addr = ascii "file://" ++ name) (reply : Except Bytes Bytes) :
    (files.read name = none → refresh files reqId p reply = ⟨[], .ok (some (ascii "Failed to open fake-printer file."), p)⟩) ∧
    (∀ text e, files.read name = some (123 :: text) → files.parse (123 :: text) = .error e → refresh files reqId p reply = ⟨[], .ok (some e, p)⟩) ∧
    (∀ text, files.read name = some text → text.length < 8 → text.head? ≠ some 123 → p.attrs = [] → refresh files reqId p reply = ⟨[], .ok (some [], p)⟩) := by
  have hs : Text.startsWith p.addr (ascii "file://") = true := (startsWith_file p).mpr ⟨name, hn.symm⟩
  have hdrop : p.addr.drop 7 = name := by rw [hn]; rfl
  have e : refresh files reqId p reply = ⟨[], refreshFromFile files p⟩ := by
    unfold refresh
    rw [if_pos hs]
    rfl
  rw [e]
  unfold refreshFromFile
  rw [hdrop]
  refine ⟨fun h => ?_, fun text e h h1 => ?_, fun text h h1 h2 h3 => ?_⟩
  · rw [h]
  · simp only [h, fakeAttrs, if_true, h1, Outcome.bind_ok]
    rfl
  · have hp : { p with attrs := [] } = p := by rw [← h3]
    have hf : fakeAttrs files p.attrs text = .ok (false, some [], []) := by
      rw [h3]
      unfold fakeAttrs
      cases text with
      | nil => rfl
      | cons b r =>
        have hb : ¬ b = 123 := fun hb => h2 (by rw [hb]; rfl)
        obtain ⟨x, hx⟩ := decodeMsg_short h1
        simp only [if_neg hb, hx]
    simp only [h, hf, Outcome.bind_ok, applyOverrides_nil]
    rw [← hp]
    rfl

/-- The third case, with a file of three bytes. -/
example : (refresh { read := fun _ => some [1, 1, 0], overrides := none, parse := fun _ => .error [] } 1 { addr := ascii "file://x", user := [], attrs := [] } (.error [])).out =
    .ok (some [], { addr := ascii "file://x", user := [], attrs := [] }) :=
  congrArg Act.out ((C71_fake_wrong _ 1 { addr := ascii "file://x", user := [], attrs := [] } (ascii "x") (by decide +kernel) (.error [])).2.2 [1, 1, 0] rfl (by decide) (by decide) rfl)

/-! Examples and witnesses -/

/-- Rules: printers of two models, and a printer with a location. -/
def sampleRules : Rules :=
  [(ascii "printer-location", [(ascii "hall", [(ascii "color-supported", (0x22, .bool false))])]),
   (ascii "printer-make-and-model",
     [(ascii "Acme 1", [(ascii "color-supported", (0x22, .bool true)), (ascii "urf-supported", (0x44, .set [.str (ascii "W8"), .str (ascii "RS300")]))]),
      (ascii "Acme 2", [])])]

/-- The reply of a printer. -/
def sampleReply : List (UInt8 × List (Bytes × Attr)) :=
  [(4, [(ascii "printer-make-and-model", (0x41, .str (ascii "Acme 1"))), (ascii "printer-location", (0x41, .str (ascii "hall"))),
    (ascii "copies-supported", (0x33, .range 1 99))])]

/-- The attributes in it. -/
def sampleAttrs : Attrs :=
  [(ascii "copies-supported", (0x33, .range 1 99)), (ascii "printer-location", (0x41, .str (ascii "hall"))),
   (ascii "printer-make-and-model", (0x41, .str (ascii "Acme 1")))]

/-- A file with the rules. -/
def sampleFiles : Files :=
  { read := fun _ => some (123 :: ascii "…"), overrides := some (ascii "rules")
    parse := fun t => if t = ascii "rules" then .ok (rulesJson sampleRules) else .ok (attrsToJson sampleAttrs) }

theorem sampleRules_ok : RulesOk sampleRules := by
  refine ⟨by unfold KMap.Sorted; decide +kernel, fun n vs h => ?_⟩
  simp only [sampleRules, List.mem_cons, List.not_mem_nil, or_false, Prod.mk.injEq] at h
  rcases h with ⟨rfl, rfl⟩ | ⟨rfl, rfl⟩
  · refine ⟨by unfold KMap.Sorted; decide +kernel, fun v o h => ?_⟩
    simp only [List.mem_cons, List.not_mem_nil, or_false, Prod.mk.injEq] at h
    obtain ⟨rfl, rfl⟩ := h
    refine ⟨⟨by unfold KMap.Sorted; decide +kernel, fun n a h => ?_⟩, fun k a h => by
      simp only [List.mem_cons, List.not_mem_nil, or_false, Prod.mk.injEq] at h; obtain ⟨rfl, rfl⟩ := h; rfl⟩
    simp only [List.mem_cons, List.not_mem_nil, or_false, Prod.mk.injEq] at h
    obtain ⟨rfl, rfl⟩ := h
    exact ⟨by decide, by decide, by simp only [WellTyped, PlainOk]⟩
  · refine ⟨by unfold KMap.Sorted; decide +kernel, fun v o h => ?_⟩
    simp only [List.mem_cons, List.not_mem_nil, or_false, Prod.mk.injEq] at h
    rcases h with ⟨rfl, rfl⟩ | ⟨rfl, rfl⟩
    · refine ⟨⟨by unfold KMap.Sorted; decide +kernel, fun n a h => ?_⟩, fun k a h => by
        simp only [List.mem_cons, List.not_mem_nil, or_false, Prod.mk.injEq] at h; rcases h with ⟨rfl, rfl⟩ | ⟨rfl, rfl⟩ <;> rfl⟩
      simp only [List.mem_cons, List.not_mem_nil, or_false, Prod.mk.injEq] at h
      rcases h with ⟨rfl, rfl⟩ | ⟨rfl, rfl⟩
      · exact ⟨by decide, by decide, by simp only [WellTyped, PlainOk]⟩
      · exact ⟨by decide, by decide, by simp only [WellTyped, PlainOk, ListOk]; decide⟩
    · exact ⟨groupOk_nil, fun _ _ h => by cases h⟩

theorem sample_plain : Plain sampleRules sampleAttrs := by
  intro n vs h
  simp only [sampleRules, List.mem_cons, List.not_mem_nil, or_false, Prod.mk.injEq] at h
  rcases h with ⟨rfl, rfl⟩ | ⟨rfl, rfl⟩
  · refine ⟨fun a ha => ?_, fun o ho n' vs' h => ?_⟩
    · have : KMap.get? sampleAttrs (ascii "printer-location") = some (0x41, .str (ascii "hall")) := by decide +kernel
      rw [this] at ha; cases ha; exact ⟨_, rfl⟩
    · have : ruleFor sampleAttrs (ascii "printer-location") [(ascii "hall", [(ascii "color-supported", (0x22, .bool false))])] =
        some [(ascii "color-supported", (0x22, .bool false))] := by decide +kernel
      rw [this] at ho; cases ho
      simp only [sampleRules, List.mem_cons, List.not_mem_nil, or_false, Prod.mk.injEq] at h
      rcases h with ⟨rfl, rfl⟩ | ⟨rfl, rfl⟩ <;> decide +kernel
  · refine ⟨fun a ha => ?_, fun o ho n' vs' h => ?_⟩
    · have : KMap.get? sampleAttrs (ascii "printer-make-and-model") = some (0x41, .str (ascii "Acme 1")) := by decide +kernel
      rw [this] at ha; cases ha; exact ⟨_, rfl⟩
    · have : ∀ vs : KMap Attrs, ruleFor sampleAttrs (ascii "printer-make-and-model") vs = KMap.get? vs (ascii "Acme 1") := fun vs =>
        ruleFor_str (tag := 0x41) (by decide +kernel) vs
      rw [this] at ho
      simp only [KMap.get?, if_true] at ho
      cases ho
      simp only [sampleRules, List.mem_cons, List.not_mem_nil, or_false, Prod.mk.injEq] at h
      rcases h with ⟨rfl, rfl⟩ | ⟨rfl, rfl⟩ <;> decide +kernel

example : InForce sampleFiles sampleRules ∧ RulesOk sampleRules ∧ Plain sampleRules sampleAttrs ∧
    Fits managedPrinter ∧ ¬ IsFile managedPrinter ∧ (∀ g ∈ sampleReply, RecvOk g) ∧ Reports sampleAttrs (lastOfTag 4 sampleReply) := by
  refine ⟨.inr ⟨ascii "rules", rfl, (if_pos rfl : (if ascii "rules" = ascii "rules" then Except.ok (rulesJson sampleRules) else Except.ok (attrsToJson sampleAttrs)) = _)⟩, sampleRules_ok, sample_plain, managedPrinter_fits,
    by unfold IsFile; decide +kernel, fun g hg => ?_, ?_⟩
  · obtain rfl := List.mem_singleton.mp hg
    refine ⟨.inr (.inr (.inl rfl)), fun n a h => ?_⟩
    simp only [List.mem_cons, List.not_mem_nil, or_false, Prod.mk.injEq] at h
    rcases h with ⟨rfl, rfl⟩ | ⟨rfl, rfl⟩ | ⟨rfl, rfl⟩ <;>
      exact ⟨by decide, by decide, by simp only [WellTyped, PlainOk, InInt32]; decide⟩
  · have : sampleAttrs = KMap.insertAll [] (lastOfTag 4 sampleReply) := by decide +kernel
    rw [this]; exact reports_insertAll _

example : (refresh sampleFiles 1 managedPrinter (.ok (response 2 0 0 1 sampleReply))).out = .ok (none, { managedPrinter with attrs :=
    [(ascii "color-supported", (0x22, .bool true)), (ascii "copies-supported", (0x33, .range 1 99)),
     (ascii "printer-location", (0x41, .str (ascii "hall"))), (ascii "printer-make-and-model", (0x41, .str (ascii "Acme 1"))),
     (ascii "urf-supported", (0x44, .set [.str (ascii "W8"), .str (ascii "RS300")]))] }) := by decide +kernel

/-- For a fake printer. -/
example : (ascii "file:///tmp/p.json") = ascii "file://" ++ ascii "/tmp/p.json" ∧
    sampleFiles.read (ascii "/tmp/p.json") = some (123 :: ascii "…") ∧
    sampleFiles.parse (123 :: ascii "…") = .ok (attrsToJson sampleAttrs) :=
  ⟨by decide +kernel, rfl, (if_neg (by decide +kernel) : (if 123 :: ascii "…" = ascii "rules" then Except.ok (rulesJson sampleRules) else Except.ok (attrsToJson sampleAttrs)) = _)⟩

/-- Rules of which the first is chosen by an attribute with several values. -/
def listRules : Rules :=
  [(ascii "ipp-versions-supported", [(ascii "1.0", [(ascii "x", (0x22, .bool true))])]),
   (ascii "printer-location", [(ascii "hall", [(ascii "color-supported", (0x22, .bool false))])])]

/-- Files with some rules. -/
def filesWith (rules : Rules) : Files :=
  { read := fun _ => none, overrides := some [], parse := fun _ => .ok (rulesJson rules) }

theorem rulesOk_bools {rules : Rules} (h1 : KMap.Sorted rules)
    (h2 : ∀ n vs, (n, vs) ∈ rules → KMap.Sorted vs ∧ ∀ v o, (v, o) ∈ vs → KMap.Sorted o ∧
      ∀ k a, (k, a) ∈ o → k ≠ [] ∧ k.length < 65536 ∧ ((∃ b, a = (0x22, .bool b)) ∨ ∃ s, a = (0x41, .str s) ∧ s.length < 65536)) : RulesOk rules := by
  refine ⟨h1, fun n vs hm => ⟨(h2 n vs hm).1, fun v o ho => ⟨⟨((h2 n vs hm).2 v o ho).1, fun k a ha => ?_⟩, fun k a ha => ?_⟩⟩⟩
  · obtain ⟨h3, h4, ⟨b, rfl⟩ | ⟨s, rfl, hs⟩⟩ := ((h2 n vs hm).2 v o ho).2 k a ha
    · exact ⟨h3, h4, by simp only [WellTyped, PlainOk]⟩
    · exact ⟨h3, h4, by simp only [WellTyped, PlainOk]; exact ⟨by decide, hs⟩⟩
  · obtain ⟨h3, h4, ⟨b, rfl⟩ | ⟨s, rfl, hs⟩⟩ := ((h2 n vs hm).2 v o ho).2 k a ha <;> rfl

/-- C71 is false: after a rule that is chosen by an attribute with several values, no rule has an effect. -/
theorem C71_list_false : ¬ C71_overrides_full := by
  intro h
  have hok : RulesOk listRules := by
    refine rulesOk_bools (by unfold KMap.Sorted; decide +kernel) (fun n vs h => ?_)
    simp only [listRules, List.mem_cons, List.not_mem_nil, or_false, Prod.mk.injEq] at h
    rcases h with ⟨rfl, rfl⟩ | ⟨rfl, rfl⟩ <;>
    · refine ⟨by unfold KMap.Sorted; decide +kernel, fun v o h => ?_⟩
      simp only [List.mem_cons, List.not_mem_nil, or_false, Prod.mk.injEq] at h
      obtain ⟨rfl, rfl⟩ := h
      refine ⟨by unfold KMap.Sorted; decide +kernel, fun k a h => ?_⟩
      simp only [List.mem_cons, List.not_mem_nil, or_false, Prod.mk.injEq] at h
      obtain ⟨rfl, rfl⟩ := h
      exact ⟨by decide, by decide, .inl ⟨_, rfl⟩⟩
  obtain ⟨res, h1, h2⟩ := h (filesWith listRules) listRules managedPrinter.attrs (.inr ⟨_, rfl, rfl⟩) hok
    (by unfold KMap.Sorted; decide +kernel)
  have h3 : applyOverrides (filesWith listRules) managedPrinter.attrs = .ok managedPrinter.attrs := by decide +kernel
  rw [h3] at h1
  cases h1
  have h4 := h2 (ascii "color-supported")
  have h5 : overriding listRules managedPrinter.attrs (ascii "color-supported") = some (0x22, .bool false) := by decide +kernel
  have h6 : KMap.get? managedPrinter.attrs (ascii "color-supported") = none := by decide +kernel
  rw [h5, h6] at h4
  cases h4

/-- Rules of which the first changes what the second is chosen by. -/
def chainRules : Rules :=
  [(ascii "printer-location", [(ascii "hall", [(ascii "printer-name", (0x41, .str (ascii "q")))])]),
   (ascii "printer-name", [(ascii "q", [(ascii "color-supported", (0x22, .bool false))])])]

/-- C71 is false: a rule for another printer has an effect after a rule that makes this printer look like it. -/
theorem C71_chain_false : ¬ C71_overrides_full := by
  intro h
  have hok : RulesOk chainRules := by
    refine rulesOk_bools (by unfold KMap.Sorted; decide +kernel) (fun n vs h => ?_)
    simp only [chainRules, List.mem_cons, List.not_mem_nil, or_false, Prod.mk.injEq] at h
    rcases h with ⟨rfl, rfl⟩ | ⟨rfl, rfl⟩ <;>
    · refine ⟨by unfold KMap.Sorted; decide +kernel, fun v o h => ?_⟩
      simp only [List.mem_cons, List.not_mem_nil, or_false, Prod.mk.injEq] at h
      obtain ⟨rfl, rfl⟩ := h
      refine ⟨by unfold KMap.Sorted; decide +kernel, fun k a h => ?_⟩
      simp only [List.mem_cons, List.not_mem_nil, or_false, Prod.mk.injEq] at h
      obtain ⟨rfl, rfl⟩ := h
      first
        | exact ⟨by decide, by decide, .inl ⟨_, rfl⟩⟩
        | exact ⟨by decide, by decide, .inr ⟨_, rfl, by decide⟩⟩
  obtain ⟨res, h1, h2⟩ := h (filesWith chainRules) chainRules managedPrinter.attrs (.inr ⟨_, rfl, rfl⟩) hok
    (by unfold KMap.Sorted; decide +kernel)
  have h3 : (match applyOverrides (filesWith chainRules) managedPrinter.attrs with
    | .ok a => KMap.get? a (ascii "color-supported") | _ => none) = some (0x22, .bool false) := by decide +kernel
  rw [h1] at h3
  have h4 := h2 (ascii "color-supported")
  have h5 : overriding chainRules managedPrinter.attrs (ascii "color-supported") = none := by decide +kernel
  have h6 : KMap.get? managedPrinter.attrs (ascii "color-supported") = none := by decide +kernel
  rw [h5, h6] at h4
  rw [show KMap.get? res (ascii "color-supported") = _ from h3] at h4
  cases h4

/-! ## C72 -/

theorem contains_iff (s what : Bytes) : Text.contains s what = true ↔ what <:+: s := by
  unfold Text.contains
  induction s with
  | nil =>
    rw [Text.findTok]
    cases what with
    | nil => simp
    | cons a w => simp
  | cons c t ih =>
    rw [Text.findTok, List.infix_cons_iff, ← List.isPrefixOf_iff_prefix]
    by_cases hp : what.isPrefixOf (c :: t) = true
    · simp [hp]
    · rw [if_neg hp, Option.isSome_map, ih]
      simp [hp]

/-- C72: the guessed formats of a printer are those of the four formats that it does not list and that its device id names; each once. -/
theorem C72_guessed (p : Printer) (hd : ∀ v, Declares (KMap.get? p.attrs (ascii "document-format-supported")) v → ∃ s, v = .str s)
    (id : Bytes) (hid : (KMap.get? p.attrs (ascii "printer-device-id") = none ∧ id = []) ∨
      ∃ tag, KMap.get? p.attrs (ascii "printer-device-id") = some (tag, .str id)) :
    ∃ l, additionalDocumentFormats p = .ok l ∧ l.Nodup ∧
      ∀ f, f ∈ l ↔ ¬ Declares (KMap.get? p.attrs (ascii "document-format-supported")) (.str f) ∧
        ∃ names name, (f, names) ∈ formatNames ∧ name ∈ names ∧ name <:+: id := by
  obtain ⟨base, hb, hmem⟩ := strList_total hd
  have hi : getString p.attrs (ascii "printer-device-id") [] = .ok id := by
    unfold getString Attrs.get
    rcases hid with ⟨h, rfl⟩ | ⟨tag, h⟩ <;> rw [h] <;> rfl
  refine ⟨guessFormats base id, ?_, ?_, fun f => ?_⟩
  · unfold additionalDocumentFormats documentFormats
    rw [hb, hi]; rfl
  · have h1 : (guessFormats base id).Sublist [pdf, postscript, pwg, urf] := by
      have one : ∀ (c : Prop) [Decidable c] (x : Bytes), (if c then [x] else []).Sublist [x] := fun c _ x => by
        split
        · exact List.Sublist.refl _
        · exact List.nil_sublist _
      unfold guessFormats
      exact (((one _ pdf).append (one _ postscript)).append (one _ pwg)).append (one _ urf)
    exact h1.nodup (by decide +kernel)
  · rw [← hmem]
    unfold guessFormats
    simp only [List.mem_append, contains_iff, Bool.or_eq_true, List.contains_eq_mem, decide_eq_false_iff_not]
    have one : ∀ (c : Prop) [Decidable c] (x : Bytes), f ∈ (if c then [x] else []) ↔ c ∧ f = x := fun c _ x => by
      split <;> simp_all
    rw [one, one, one, one]
    constructor
    · rintro (((⟨⟨h1, h2⟩, rfl⟩ | ⟨⟨h1, h2⟩, rfl⟩) | ⟨⟨h1, h2⟩, rfl⟩) | ⟨⟨h1, h2⟩, rfl⟩)
      · exact ⟨h1, [ascii "PDF"], _, by decide +kernel, List.mem_cons_self .., h2⟩
      · refine ⟨h1, [ascii "POSTSCRIPT", ascii "PostScript"], ?_⟩
        rcases h2 with h2 | h2
        · exact ⟨_, by decide +kernel, List.mem_cons_self .., h2⟩
        · exact ⟨_, by decide +kernel, List.mem_cons_of_mem _ (List.mem_cons_self ..), h2⟩
      · exact ⟨h1, [ascii "PWG"], _, by decide +kernel, List.mem_cons_self .., h2⟩
      · refine ⟨h1, [ascii "URF", ascii "AppleRaster"], ?_⟩
        rcases h2 with h2 | h2
        · exact ⟨_, by decide +kernel, List.mem_cons_self .., h2⟩
        · exact ⟨_, by decide +kernel, List.mem_cons_of_mem _ (List.mem_cons_self ..), h2⟩
    · rintro ⟨h1, names, name, h2, h3, h4⟩
      simp only [formatNames, List.mem_cons, List.not_mem_nil, or_false, Prod.mk.injEq] at h2
      rcases h2 with ⟨rfl, rfl⟩ | ⟨rfl, rfl⟩ | ⟨rfl, rfl⟩ | ⟨rfl, rfl⟩
      · simp only [List.mem_cons, List.not_mem_nil, or_false] at h3
        subst h3
        exact .inl (.inl (.inl ⟨⟨h1, h4⟩, rfl⟩))
      · simp only [List.mem_cons, List.not_mem_nil, or_false] at h3
        refine .inl (.inl (.inr ⟨⟨h1, ?_⟩, rfl⟩))
        rcases h3 with rfl | rfl
        · exact .inl h4
        · exact .inr h4
      · simp only [List.mem_cons, List.not_mem_nil, or_false] at h3
        subst h3
        exact .inl (.inr ⟨⟨h1, h4⟩, rfl⟩)
      · simp only [List.mem_cons, List.not_mem_nil, or_false] at h3
        refine .inr ⟨⟨h1, ?_⟩, rfl⟩
        rcases h3 with rfl | rfl
        · exact .inl h4
        · exact .inr h4

/-- C72 is about jobs too: a new job has the guessed formats, besides the attributes of the printer. -/
theorem C72_job (p : Printer) (l : List Bytes) (h : additionalDocumentFormats p = .ok l) :
    ∃ j, createJob p = .ok j ∧ j.additional = l ∧ j.printerAttrs = p.attrs := by
  unfold createJob
  rw [h]
  exact ⟨_, rfl, rfl, rfl⟩

example : additionalDocumentFormats { addr := [], attrs :=
    [(ascii "document-format-supported", (0x49, .set [.str (ascii "application/pdf"), .str (ascii "image/jpeg")])),
     (ascii "printer-device-id", (0x41, .str (ascii "MFG:Acme;CMD:PDF,PostScript,AppleRaster;")))] } =
    .ok [ascii "application/postscript", ascii "image/urf"] := by decide +kernel

end Verif.Printer
