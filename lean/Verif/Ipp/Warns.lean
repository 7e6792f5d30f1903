import Verif.Ipp.Tool

/-!
# What decoding and encoding a message write to the standard error: lib/ippmsg.cpp (C117)

`decodeMsg` and `encodeMsg` leave out what is printed on the way; it is added here. Not modelled: the build with `FUZZ`, which prints nothing.
-/

set_option linter.unusedVariables false

namespace Verif.Ipp

open Verif.Ipp.Spec

/-! ## The model: decoding -/

/-- ippmsg.cpp 32-38: at the end of a group of unsupported attributes. There is no line feed behind the JSON. -/
def groupSays (dump : Json → Bytes) (cur : UInt8) (attrs : Attrs) : Bytes :=
  if cur = tUnsupportedAttrs then ascii "WARNING: unsupported attrs reported: " ++ 10 :: dump (attrsToJson attrs) else []

/-- The loop of the decoder, ippmsg.cpp 15-52, in step with `decodeLoop`: what it prints until it ends or throws. -/
def decodeLoopSays (dump : Json → Bytes) (cur : UInt8) (attrs : Attrs) (data : Bytes) : Bytes :=
  match data with
  | [] => []
  | t :: r =>
    if t ≤ tUnsupportedAttrs then
      if t = tEndAttrs then groupSays dump cur attrs
      else groupSays dump cur attrs ++ decodeLoopSays dump t [] r
    else
      match hc : consumeAttribute (t :: r) with
      | .ok (name, attr, r') => decodeLoopSays dump cur (attrs.insertNew name attr) r'
      | _ => []
  termination_by data.length
  decreasing_by
    · simp
    · have := consumeAttribute_length hc; omega

/-- `IppMsg::IppMsg(Bytestream&)`, ippmsg.cpp 7-53: the first eight bytes are read without a word. -/
def decodeSays (dump : Json → Bytes) (data : Bytes) : Bytes := if data.length < 8 then [] else decodeLoopSays dump tEndAttrs [] (data.drop 8)

/-! ## The model: encoding -/

/-- ippmsg.cpp 436-438: the `default` branch of `encodeValue`, which unsupported-attributes (0x05) takes, too. -/
def tagSays (tag : UInt8) : Bytes :=
  if tag = tUnsupportedAttrs ∨ kind tag = .other then ascii "uncaught tag " ++ dec tag.toNat else []

mutual
/-- The value part of `encodeAttribute` and `encodeValue`, in step with `encodeVal` -/
def valSays (top : Bool) (tag : UInt8) : Value → Bytes
  | .set l => if top then setSays tag l else tagSays tag
  | .coll m => if kind tag = .coll then membersSay m else tagSays tag
  | .str _ => tagSays tag
  | .int _ => tagSays tag
  | .bool _ => tagSays tag
  | .range _ _ => tagSays tag
  | .res _ _ _ => tagSays tag
  | .date _ => tagSays tag

/-- ippmsg.cpp 350-358: up to the first value that throws -/
def setSays (tag : UInt8) : List Value → Bytes
  | [] => []
  | v :: r =>
    match encodeVal false tag v with
    | .ok _ => setSays tag r
    | _ => valSays false tag v

/-- ippmsg.cpp 412-415 -/
def membersSay : List (Bytes × (UInt8 × Value)) → Bytes
  | [] => []
  | (_, (tag, v)) :: r =>
    match encodeVal true tag v with
    | .ok _ => membersSay r
    | _ => valSays true tag v
end

/-- `encodeAttributes`, ippmsg.cpp 331-337 -/
def attributesSay : Attrs → Bytes
  | [] => []
  | (name, attr) :: r =>
    match encodeAttribute name attr with
    | .ok _ => attributesSay r
    | _ => valSays true attr.1 attr.2

/-- The loop at ippmsg.cpp 81-89, and 90 with what is left of the attributes -/
def opSays : List Bytes → Attrs → Bytes
  | [], attrs => attributesSay attrs
  | key :: r, attrs =>
    match attrs.get? key with
    | some val =>
      match encodeAttribute key val with
      | .ok _ => opSays r (attrs.erase key)
      | _ => valSays true val.1 val.2
    | none => opSays r attrs

/-- The loop at ippmsg.cpp 91-98 -/
def jobsSay : List Attrs → Bytes
  | [] => []
  | attrs :: r =>
    match encodeAttributes attrs with
    | .ok _ => jobsSay r
    | _ => attributesSay attrs

/-- `IppMsg::encode`, ippmsg.cpp 64-106: one part after the other, up to the first that throws; the others have nothing to say then. -/
def encodeSays (m : Msg) : Bytes :=
  match encodeInitial initialAttrs m.opAttrs with
  | .ok (_, rest) =>
    match encodeAttributes rest with
    | .ok _ =>
      match encodeJobs m.jobAttrs with
      | .ok _ => attributesSay m.printerAttrs
      | _ => jobsSay m.jobAttrs
    | _ => attributesSay rest
  | _ => opSays initialAttrs m.opAttrs

/-- `main` of ippdecode, ippdecode.cpp 7-38: everything on the standard error -/
def ippdecodeErrors (dump : Json → Bytes) (read : Bytes → Option Bytes) (args : List Bytes) : Bytes :=
  match args with
  | [name] =>
    match read name with
    | none => ascii "Failed to open input" ++ [10]
    | some data => decodeSays dump data ++ match decodeMsg data with
      | .throws _ => ascii "Exception caught." ++ [10]
      | _ => []
  | _ => ascii "Usage: ippdecode [file]" ++ [10]

/-! ## Specification -/

namespace Spec

/-- The text about a group of unsupported attributes -/
def warning (dump : Json → Bytes) (j : Json) : Bytes := ascii "WARNING: unsupported attrs reported: \n" ++ dump j

/-- The texts about groups that are tagged 5, in order, each with JSON that has the attributes of the group -/
def Warnings (dump : Json → Bytes) (gs : List (UInt8 × List (Bytes × Attr))) (text : Bytes) : Prop :=
  ∃ js, All2 JsonOf ((ofTag 5 gs).map membersAsTexts) js ∧ text = js.flatMap (warning dump)

/-- The tags that attributes are encoded with, and those that no value may have -/
def knownTags : List UInt8 := [1, 2, 3, 4, 0x21, 0x22, 0x23, 0x31, 0x32, 0x33, 0x34] ++ stringTags

mutual
/-- A tag that occurs in a value with this tag -/
inductive TagIn (tag : UInt8) : UInt8 → Value → Prop
  | here {v : Value} : TagIn tag tag v
  | coll {t : UInt8} {m : List (Bytes × (UInt8 × Value))} : TagInMembers tag m → TagIn tag t (.coll m)
  | set {t : UInt8} {l : List Value} {v : Value} : v ∈ l → TagIn tag t v → TagIn tag t (.set l)

inductive TagInMembers (tag : UInt8) : List (Bytes × (UInt8 × Value)) → Prop
  | head {name : Bytes} {t : UInt8} {v : Value} {r : List (Bytes × (UInt8 × Value))} : TagIn tag t v → TagInMembers tag ((name, (t, v)) :: r)
  | tail {e : Bytes × (UInt8 × Value)} {r : List (Bytes × (UInt8 × Value))} : TagInMembers tag r → TagInMembers tag (e :: r)
end

/-- An attribute of the message -/
def AttrOf (m : Msg) (a : Attr) : Prop := ∃ name, (name, a) ∈ m.opAttrs ∨ (∃ g ∈ m.jobAttrs, (name, a) ∈ g) ∨ (name, a) ∈ m.printerAttrs

end Spec

/-! ## Proofs: decoding -/

theorem groupSays_cases (dump : Json → Bytes) (cur : UInt8) (attrs : Attrs) : ∃ l : List Json, groupSays dump cur attrs = l.flatMap (warning dump) := by
  unfold groupSays
  split
  · refine ⟨[attrsToJson attrs], ?_⟩
    have e : ascii "WARNING: unsupported attrs reported: \n" = ascii "WARNING: unsupported attrs reported: " ++ [10] := by decide +kernel
    simp [warning, e]
  · exact ⟨[], rfl⟩

theorem loopSays_delim (dump : Json → Bytes) {cur t : UInt8} {acc : Attrs} (h1 : t ≤ 5) (h2 : t ≠ 3) (r : Bytes) :
    decodeLoopSays dump cur acc (t :: r) = groupSays dump cur acc ++ decodeLoopSays dump t [] r := by
  rw [decodeLoopSays.eq_def]
  simp only [if_pos h1, if_neg h2]

theorem loopSays_end (dump : Json → Bytes) (cur : UInt8) (acc : Attrs) (r : Bytes) : decodeLoopSays dump cur acc (3 :: r) = groupSays dump cur acc := by
  rw [decodeLoopSays.eq_def]
  simp only [if_pos (show (3 : UInt8) ≤ 5 by decide), if_true]

theorem loopSays_nil (dump : Json → Bytes) (cur : UInt8) (acc : Attrs) : decodeLoopSays dump cur acc [] = [] := by rw [decodeLoopSays.eq_def]

theorem loopSays_other (dump : Json → Bytes) {cur t : UInt8} {acc : Attrs} (h : ¬ t ≤ 5) {r r' name : Bytes} {attr : Attr}
    (hc : consumeAttribute (t :: r) = .ok (name, attr, r')) : decodeLoopSays dump cur acc (t :: r) = decodeLoopSays dump cur (acc.insertNew name attr) r' := by
  rw [decodeLoopSays.eq_def]
  simp only [if_neg h]
  split
  · rename_i h2
    rw [hc] at h2
    cases h2
    rfl
  · rename_i h2
    exact absurd hc (h2 _ _ _)

theorem loopSays_attr (dump : Json → Bytes) {cur : UInt8} {acc : Attrs} {name : Bytes} {attr : Attr} (hl : name.length < 65536)
    (h : WellTyped true attr.1 attr.2) {rest : Bytes} (hr : NotUnnamed rest) :
    decodeLoopSays dump cur acc (attrBytes name attr ++ rest) = decodeLoopSays dump cur (acc.insertNew name attr) rest := by
  have hc := consumeAttribute_spec hl h hr
  obtain ⟨x, hx⟩ : ∃ x, attrBytes name attr ++ rest = attr.1 :: x := ⟨_, by rw [attrBytes_eq h]; simp only [List.cons_append]; rfl⟩
  rw [hx] at hc ⊢
  exact loopSays_other dump (wellTyped_tag _ h) hc

theorem loopSays_group (dump : Json → Bytes) {cur : UInt8} {g : List (Bytes × Attr)}
    (h : ∀ name attr, (name, attr) ∈ g → name ≠ [] ∧ name.length < 65536 ∧ WellTyped true attr.1 attr.2)
    {rest : Bytes} (hr : NotUnnamed rest) (acc : Attrs) :
    decodeLoopSays dump cur acc (groupBytes g ++ rest) = decodeLoopSays dump cur (KMap.insertAll acc g) rest := by
  induction g generalizing acc with
  | nil => rfl
  | cons e g ih =>
    have he := h e.1 e.2 (List.mem_cons_self ..)
    have hg := fun n a hm => h n a (List.mem_cons_of_mem _ hm)
    have hgb : groupBytes (e :: g) ++ rest = attrBytes e.1 e.2 ++ (groupBytes g ++ rest) := by simp [groupBytes]
    rw [hgb, loopSays_attr dump he.2.1 he.2.2 (notUnnamed_group hg hr)]
    exact ih hg _

theorem loopSays_groups (dump : Json → Bytes) {gs : List (UInt8 × List (Bytes × Attr))} (h : ∀ g ∈ gs, RecvOk g) {doc : Bytes}
    (hd : NotUnnamed (3 :: doc)) (cur : UInt8) (acc : Attrs) :
    decodeLoopSays dump cur acc (groupsBytes gs ++ 3 :: doc) = groupSays dump cur acc ++ gs.flatMap (fun g => groupSays dump g.1 (KMap.insertAll [] g.2)) := by
  induction gs generalizing cur acc with
  | nil =>
    rw [List.flatMap_nil, List.append_nil]
    exact loopSays_end dump cur acc doc
  | cons g gs ih =>
    have hg := h g (List.mem_cons_self ..)
    have hgs := fun g' hm => h g' (List.mem_cons_of_mem _ hm)
    have hnot : NotUnnamed (groupsBytes gs ++ 3 :: doc) := by
      refine (notUnnamed_groups hgs hd (by simp) 1 ?_).1
      exact .inr (notUnnamed_cons (by decide) _)
    rw [groupsBytes, List.flatMap_cons]
    simp only [List.cons_append, List.append_assoc]
    rw [loopSays_delim dump (recv_tag hg).1 (recv_tag hg).2]
    have := loopSays_group dump (cur := g.1) hg.2 hnot []
    rw [groupsBytes] at this
    rw [this, List.flatMap_cons]
    congr 1
    exact ih hgs _ _

/-- Without end-of-attributes the last group is not spoken of. -/
theorem loopSays_open (dump : Json → Bytes) {gs : List (UInt8 × List (Bytes × Attr))} (h : ∀ g ∈ gs, RecvOk g) (cur : UInt8) (acc : Attrs) :
    decodeLoopSays dump cur acc (groupsBytes gs) =
      if gs = [] then [] else groupSays dump cur acc ++ gs.dropLast.flatMap (fun g => groupSays dump g.1 (KMap.insertAll [] g.2)) := by
  induction gs generalizing cur acc with
  | nil => exact loopSays_nil dump cur acc
  | cons g gs ih =>
    have hg := h g (List.mem_cons_self ..)
    have hgs := fun g' hm => h g' (List.mem_cons_of_mem _ hm)
    have hnot : NotUnnamed (groupsBytes gs) := by
      have := (notUnnamed_groups hgs notUnnamed_nil (by simp) 1 (.inr (notUnnamed_single _))).1
      simpa using this
    rw [groupsBytes, List.flatMap_cons]
    simp only [List.cons_append]
    rw [loopSays_delim dump (recv_tag hg).1 (recv_tag hg).2]
    have := loopSays_group dump (cur := g.1) hg.2 hnot []
    rw [groupsBytes] at this
    rw [this]
    have := ih hgs g.1 (KMap.insertAll [] g.2)
    rw [groupsBytes] at this
    rw [this]
    cases gs with
    | nil => simp
    | cons g' gs => simp

theorem groups_warnings (dump : Json → Bytes) {gs : List (UInt8 × List (Bytes × Attr))} (h : ∀ g ∈ gs, RecvOk g) :
    Warnings dump gs (gs.flatMap (fun g => groupSays dump g.1 (KMap.insertAll [] g.2))) := by
  induction gs with
  | nil => exact ⟨[], .nil, rfl⟩
  | cons g gs ih =>
    obtain ⟨js, h1, h2⟩ := ih fun g' hm => h g' (List.mem_cons_of_mem _ hm)
    have hg := h g List.mem_cons_self
    rw [List.flatMap_cons, h2]
    by_cases h5 : g.1 = 5
    · have ho : ofTag 5 (g :: gs) = g.2 :: ofTag 5 gs := by simp [ofTag, h5]
      refine ⟨attrsToJson (KMap.insertAll [] g.2) :: js, ?_, ?_⟩
      · rw [ho]
        exact .cons (jsonOf_reports (tag := g.1) (reports_insertAll g.2) hg) h1
      · have e : ascii "WARNING: unsupported attrs reported: \n" = ascii "WARNING: unsupported attrs reported: " ++ [10] := by decide +kernel
        unfold groupSays
        rw [if_pos h5, List.flatMap_cons, warning, e]
        simp
    · have ho : ofTag 5 (g :: gs) = ofTag 5 gs := by simp [ofTag, h5]
      refine ⟨js, by rw [ho]; exact h1, ?_⟩
      unfold groupSays
      rw [if_neg h5]
      rfl

theorem decodeSays_header (dump : Json → Bytes) (maj min : UInt8) (op : UInt16) (reqId : Nat) (r : Bytes) :
    decodeSays dump (headerBytes maj min op reqId ++ r) = decodeLoopSays dump tEndAttrs [] r := by
  have hl : (headerBytes maj min op reqId).length = 8 := by simp [headerBytes]
  unfold decodeSays
  rw [if_neg (by rw [List.length_append]; omega), List.drop_append_of_le_length (by omega), List.drop_eq_nil_of_le (by omega)]
  rfl

/-! ## Theorems: decoding -/

/-- **C117, messages that come in.** While a message of any groups is decoded there is one text for every group of unsupported attributes, in order, with JSON that
has these attributes (of repeated names the first counts, dates are texts), and nothing else. -/
theorem C117_groups (dump : Json → Bytes) (gs : List (UInt8 × List (Bytes × Attr))) (h : ∀ g ∈ gs, RecvOk g) (maj min : UInt8) (op : UInt16) (reqId : Nat) (doc : Bytes)
    (hd : ∀ r, doc ≠ 0 :: 0 :: r) : Warnings dump gs (decodeSays dump (headerBytes maj min op reqId ++ (groupsBytes gs ++ 3 :: doc))) := by
  have hn : NotUnnamed (3 :: doc) := by
    intro t r he
    injection he with _ he
    exact hd r he
  rw [decodeSays_header, loopSays_groups dump h hn]
  have : groupSays dump tEndAttrs [] = [] := by unfold groupSays; rw [if_neg (by decide)]
  rw [this]
  exact groups_warnings dump h

/-- **C117, messages without end.** Of a message that stops without the end tag all groups but the last are spoken of. -/
theorem C117_open (dump : Json → Bytes) (gs : List (UInt8 × List (Bytes × Attr))) (h : ∀ g ∈ gs, RecvOk g) (maj min : UInt8) (op : UInt16) (reqId : Nat) :
    Warnings dump gs.dropLast (decodeSays dump (headerBytes maj min op reqId ++ groupsBytes gs)) := by
  rw [decodeSays_header, loopSays_open dump h]
  have : groupSays dump tEndAttrs [] = [] := by unfold groupSays; rw [if_neg (by decide)]
  rw [this]
  split
  · rename_i h0
    rw [h0]
    exact ⟨[], .nil, rfl⟩
  · exact groups_warnings dump fun g hg => h g (List.dropLast_subset _ hg)

theorem consume_suffix {s name r : Bytes} {attr : Attr} (h : consumeAttribute s = .ok (name, attr, r)) : r <:+ s := by
  unfold consumeAttribute at h
  obtain ⟨⟨_, r1⟩, h1, h⟩ := Outcome.bind_eq_ok.mp h
  obtain ⟨⟨_, r2⟩, h2, h⟩ := Outcome.bind_eq_ok.mp h
  obtain ⟨⟨_, r3⟩, h3, h⟩ := Outcome.bind_eq_ok.mp h
  obtain ⟨⟨_, r4⟩, h4, h⟩ := Outcome.bind_eq_ok.mp h
  obtain ⟨⟨_, r5⟩, h5, h⟩ := Outcome.bind_eq_ok.mp h
  obtain ⟨⟨_, l⟩, h6, h⟩ := Outcome.bind_eq_ok.mp h
  cases h
  exact (getUnnamed_suffix _ h5).trans <| (decodeValue_suffix h4).trans <| (rdBytes_suffix h3).trans <| (rd16_suffix h2).trans (rd8_suffix h1)

/-- **C117, any data.** Whatever comes in: nothing but such texts is said about it, and nothing at all if no byte behind the first eight is 5. -/
theorem C117_any (dump : Json → Bytes) (data : Bytes) :
    (∃ js : List Json, decodeSays dump data = js.flatMap (warning dump)) ∧ (5 ∉ data.drop 8 → decodeSays dump data = []) := by
  have key : ∀ (n : Nat) (data : Bytes) (cur : UInt8) (acc : Attrs), data.length ≤ n →
      (∃ js : List Json, decodeLoopSays dump cur acc data = js.flatMap (warning dump)) ∧ (5 ∉ data → cur ≠ 5 → decodeLoopSays dump cur acc data = []) := by
    intro n
    induction n with
    | zero =>
      intro data cur acc hl
      rw [List.eq_nil_of_length_eq_zero (l := data) (by omega), loopSays_nil]
      exact ⟨⟨[], rfl⟩, fun _ _ => rfl⟩
    | succ n ih =>
      intro data cur acc hl
      cases data with
      | nil => rw [loopSays_nil]; exact ⟨⟨[], rfl⟩, fun _ _ => rfl⟩
      | cons t r =>
        simp only [List.length_cons] at hl
        have quiet : cur ≠ 5 → groupSays dump cur acc = [] := fun h => by unfold groupSays; rw [if_neg h]
        by_cases h1 : t ≤ 5
        · by_cases h2 : t = 3
          · subst h2
            rw [loopSays_end]
            exact ⟨groupSays_cases .., fun _ => quiet⟩
          · rw [loopSays_delim dump h1 h2]
            obtain ⟨a, ha⟩ := groupSays_cases dump cur acc
            obtain ⟨⟨b, hb⟩, hq⟩ := ih r t [] (by omega)
            refine ⟨⟨a ++ b, by rw [ha, hb, List.flatMap_append]⟩, fun h5 hc => ?_⟩
            rw [List.mem_cons, not_or] at h5
            rw [quiet hc, hq h5.2 (Ne.symm h5.1)]
            rfl
        · cases hc : consumeAttribute (t :: r) with
          | ok x =>
            obtain ⟨name, attr, r'⟩ := x
            rw [loopSays_other dump h1 hc]
            have := consumeAttribute_length hc
            simp only [List.length_cons] at this
            obtain ⟨hb, hq⟩ := ih r' cur (acc.insertNew name attr) (by omega)
            exact ⟨hb, fun h5 => hq fun hm => h5 ((consume_suffix hc).subset hm)⟩
          | _ =>
            rw [decodeLoopSays.eq_def]
            simp only [if_neg h1]
            split
            · rename_i h2; rw [hc] at h2; cases h2
            · exact ⟨⟨[], rfl⟩, fun _ _ => rfl⟩
  unfold decodeSays
  split
  · exact ⟨⟨[], rfl⟩, fun _ => rfl⟩
  · obtain ⟨h1, h2⟩ := key _ (data.drop 8) tEndAttrs [] (Nat.le_refl _)
    exact ⟨h1, fun h => h2 h (by decide)⟩

/-- **C117, ippdecode.** Everything that ippdecode writes to the standard error for a file with a message of any groups: a text for every group of unsupported
attributes. -/
theorem C117_ippdecode (dump : Json → Bytes) (read : Bytes → Option Bytes) (name : Bytes) (gs : List (UInt8 × List (Bytes × Attr))) (h : ∀ g ∈ gs, RecvOk g)
    (maj min : UInt8) (op : UInt16) (reqId : Nat) (doc : Bytes) (hd : ∀ r, doc ≠ 0 :: 0 :: r)
    (hread : read name = some (headerBytes maj min op reqId ++ (groupsBytes gs ++ 3 :: doc))) : Warnings dump gs (ippdecodeErrors dump read [name]) := by
  have hn : NotUnnamed (3 :: doc) := by
    intro t r he
    injection he with _ he
    exact hd r he
  unfold ippdecodeErrors
  simp only [hread, decodeMsg_groups_end h hn, List.append_nil]
  exact C117_groups dump gs h maj min op reqId doc hd

/-- **C117, ippdecode, any arguments and any file.** The texts about groups of unsupported attributes come first, and only for a file that is there. Then nothing follows if the message is
shown, and otherwise one line with the reason: how to call it, that there is no file, or that this is no message. -/
theorem C117_ippdecode_ends (dump : Json → Bytes) (read : Bytes → Option Bytes) (args : List Bytes) (c : Nat) (h : (ippdecode dump read args).1 = .ok c) :
    ∃ (js : List Json) (last : Bytes), ippdecodeErrors dump read args = js.flatMap (warning dump) ++ last ∧
      ((last = [] ∧ c = 0 ∧ (ippdecode dump read args).2 ≠ []) ∨
       (last = ascii "Usage: ippdecode [file]\n" ∧ js = [] ∧ c = 1 ∧ args.length ≠ 1 ∧ (ippdecode dump read args).2 = []) ∨
       (last = ascii "Failed to open input\n" ∧ js = [] ∧ c = 1 ∧ (∃ name, args = [name] ∧ read name = none) ∧ (ippdecode dump read args).2 = []) ∨
       (last = ascii "Exception caught.\n" ∧ c = 0 ∧ (∃ name data, args = [name] ∧ read name = some data ∧ ∀ m, decodeMsg data ≠ .ok m) ∧
         (ippdecode dump read args).2 = [])) := by
  unfold ippdecode at h ⊢
  unfold ippdecodeErrors
  match args, h with
  | [], h => exact ⟨[], _, rfl, .inr (.inl ⟨by decide, rfl, by injection h with h; exact h.symm, by simp, rfl⟩)⟩
  | _ :: _ :: _, h => exact ⟨[], _, rfl, .inr (.inl ⟨by decide, rfl, by injection h with h; exact h.symm, by simp, rfl⟩)⟩
  | [name], h =>
    cases hr : read name with
    | none =>
      simp only [hr] at h ⊢
      exact ⟨[], _, rfl, .inr (.inr (.inl ⟨by decide, rfl, by injection h with h; exact h.symm, ⟨name, rfl, hr⟩, trivial⟩))⟩
    | some data =>
      obtain ⟨js, hjs⟩ := (C117_any dump data).1
      simp only [hr] at h ⊢
      cases hm : decodeMsg data with
      | ok m =>
        simp only [hm] at h ⊢
        refine ⟨js, [], by rw [hjs], .inl ⟨rfl, by injection h with h; exact h.symm, ?_⟩⟩
        unfold showMsg
        simp [ascii]
      | throws e =>
        simp only [hm] at h ⊢
        exact ⟨js, _, by rw [hjs], .inr (.inr (.inr ⟨by decide, by injection h with h; exact h.symm, ⟨name, data, rfl, hr, fun m => by rw [hm]; simp⟩, trivial⟩))⟩
      | ub => simp only [hm] at h; cases h
      | hang => simp only [hm] at h; cases h

example (dump : Json → Bytes) : (ippdecode dump (fun _ => some [1, 1, 0]) [ascii "f"]).1 = .ok 0 ∧
    ippdecodeErrors dump (fun _ => some [1, 1, 0]) [ascii "f"] = ascii "Exception caught.\n" := by
  have : decodeMsg [1, 1, 0] = .throws .outOfRange ∨ decodeMsg [1, 1, 0] = .throws .logicError := by decide +kernel
  rcases this with h | h <;> exact ⟨by simp [ippdecode, h], by simp [ippdecodeErrors, decodeSays, h]; decide +kernel⟩

/-! ## Proofs: encoding -/

theorem kind_other {tag : UInt8} (h : tag = tUnsupportedAttrs ∨ kind tag = .other) : tag ∉ knownTags := by
  rcases h with rfl | h
  · decide
  · intro hm
    have all : ∀ t ∈ knownTags, kind t ≠ .other := by decide
    exact all tag hm h

theorem scalar_quiet {tag : UInt8} {v : Value} {b : Bytes} (h : encodeScalar tag v = .ok b) : tagSays tag = [] := by
  unfold tagSays
  rw [if_neg]
  rintro (rfl | h2)
  · unfold encodeScalar at h
    rw [show kind tUnsupportedAttrs = .delimiter by decide] at h
    cases h
  · unfold encodeScalar at h
    rw [h2] at h
    cases h

theorem tag_told {tag : UInt8} (h : tagSays tag ≠ []) : tag ∉ knownTags ∧ tagSays tag = ascii "uncaught tag " ++ dec tag.toNat := by
  unfold tagSays at *
  split
  · rename_i h2; exact ⟨kind_other h2, rfl⟩
  · rename_i h2; rw [if_neg h2] at h; exact absurd rfl h

mutual
theorem val_quiet : (v : Value) → ∀ {top : Bool} {tag : UInt8} {b : Bytes}, encodeVal top tag v = .ok b → valSays top tag v = []
  | .set l, top, tag, b, h => by
    rw [encodeVal] at h
    rw [valSays]
    split at h
    · rename_i ht
      rw [if_pos ht]
      cases l with
      | nil => rw [setSays]
      | cons v r =>
        rw [encodeSet] at h
        obtain ⟨a, h1, h⟩ := Outcome.bind_eq_ok.mp h
        obtain ⟨c, h2, h⟩ := Outcome.bind_eq_ok.mp h
        rw [setSays, h1]
        exact rest_quiet r h2
    · rename_i ht
      rw [if_neg ht]
      exact scalar_quiet h
  | .coll m, top, tag, b, h => by
    rw [encodeVal] at h
    rw [valSays]
    split at h
    · rename_i ht
      rw [if_pos ht]
      obtain ⟨a, h1, h⟩ := Outcome.bind_eq_ok.mp h
      exact members_quiet m h1
    · rename_i ht
      rw [if_neg ht]
      exact scalar_quiet h
  | .str _, _, _, _, h => by rw [encodeVal] at h; rw [valSays]; exact scalar_quiet h
  | .int _, _, _, _, h => by rw [encodeVal] at h; rw [valSays]; exact scalar_quiet h
  | .bool _, _, _, _, h => by rw [encodeVal] at h; rw [valSays]; exact scalar_quiet h
  | .range _ _, _, _, _, h => by rw [encodeVal] at h; rw [valSays]; exact scalar_quiet h
  | .res _ _ _, _, _, _, h => by rw [encodeVal] at h; rw [valSays]; exact scalar_quiet h
  | .date _, _, _, _, h => by rw [encodeVal] at h; rw [valSays]; exact scalar_quiet h

theorem rest_quiet : (l : List Value) → ∀ {tag : UInt8} {b : Bytes}, encodeRest tag l = .ok b → setSays tag l = []
  | [], _, _, _ => by rw [setSays]
  | v :: r, tag, b, h => by
    rw [encodeRest] at h
    obtain ⟨a, h1, h⟩ := Outcome.bind_eq_ok.mp h
    obtain ⟨c, h2, h⟩ := Outcome.bind_eq_ok.mp h
    rw [setSays, h1]
    exact rest_quiet r h2

theorem members_quiet : (l : List (Bytes × (UInt8 × Value))) → ∀ {b : Bytes}, encodeMembers l = .ok b → membersSay l = []
  | [], _, _ => by rw [membersSay]
  | (name, (tag, v)) :: r, b, h => by
    rw [encodeMembers] at h
    obtain ⟨a, h1, h⟩ := Outcome.bind_eq_ok.mp h
    obtain ⟨c, h2, h⟩ := Outcome.bind_eq_ok.mp h
    rw [membersSay, h1]
    exact members_quiet r h2
end

mutual
theorem val_told : (v : Value) → ∀ {top : Bool} {tag : UInt8}, valSays top tag v ≠ [] →
    ∃ t, TagIn t tag v ∧ t ∉ knownTags ∧ valSays top tag v = ascii "uncaught tag " ++ dec t.toNat
  | .set l, top, tag, h => by
    rw [valSays] at h ⊢
    split at h
    · rename_i ht
      rw [if_pos ht]
      obtain ⟨t, ⟨v, hv, h1⟩, h2⟩ := set_told l h
      exact ⟨t, .set hv h1, h2⟩
    · rename_i ht
      rw [if_neg ht]
      exact ⟨tag, .here, tag_told h⟩
  | .coll m, top, tag, h => by
    rw [valSays] at h ⊢
    split at h
    · rename_i ht
      rw [if_pos ht]
      obtain ⟨t, h1, h2⟩ := members_told m h
      exact ⟨t, .coll h1, h2⟩
    · rename_i ht
      rw [if_neg ht]
      exact ⟨tag, .here, tag_told h⟩
  | .str _, _, tag, h => by rw [valSays] at h ⊢; exact ⟨tag, .here, tag_told h⟩
  | .int _, _, tag, h => by rw [valSays] at h ⊢; exact ⟨tag, .here, tag_told h⟩
  | .bool _, _, tag, h => by rw [valSays] at h ⊢; exact ⟨tag, .here, tag_told h⟩
  | .range _ _, _, tag, h => by rw [valSays] at h ⊢; exact ⟨tag, .here, tag_told h⟩
  | .res _ _ _, _, tag, h => by rw [valSays] at h ⊢; exact ⟨tag, .here, tag_told h⟩
  | .date _, _, tag, h => by rw [valSays] at h ⊢; exact ⟨tag, .here, tag_told h⟩

theorem set_told : (l : List Value) → ∀ {tag : UInt8}, setSays tag l ≠ [] →
    ∃ t, (∃ v ∈ l, TagIn t tag v) ∧ t ∉ knownTags ∧ setSays tag l = ascii "uncaught tag " ++ dec t.toNat
  | [], _, h => by rw [setSays] at h; exact absurd rfl h
  | v :: r, tag, h => by
    rw [setSays] at h ⊢
    split at h
    · rename_i he
      obtain ⟨t, ⟨v', hv, h1⟩, h2⟩ := set_told r h
      exact ⟨t, ⟨v', List.mem_cons_of_mem _ hv, h1⟩, h2⟩
    · rename_i he
      obtain ⟨t, h1, h2, h3⟩ := val_told v h
      exact ⟨t, ⟨v, List.mem_cons_self, h1⟩, h2, h3⟩

theorem members_told : (l : List (Bytes × (UInt8 × Value))) → membersSay l ≠ [] →
    ∃ t, TagInMembers t l ∧ t ∉ knownTags ∧ membersSay l = ascii "uncaught tag " ++ dec t.toNat
  | [], h => by rw [membersSay] at h; exact absurd rfl h
  | (name, (tag, v)) :: r, h => by
    rw [membersSay] at h ⊢
    split at h
    · rename_i he
      obtain ⟨t, h1, h2⟩ := members_told r h
      exact ⟨t, .tail h1, h2⟩
    · rename_i he
      obtain ⟨t, h1, h2, h3⟩ := val_told v h
      exact ⟨t, .head h1, h2, h3⟩
end

theorem attribute_quiet {name : Bytes} {attr : Attr} {b : Bytes} (h : encodeAttribute name attr = .ok b) : valSays true attr.1 attr.2 = [] := by
  unfold encodeAttribute at h
  obtain ⟨a, h1, _⟩ := Outcome.bind_eq_ok.mp h
  exact val_quiet _ h1

theorem attributes_quiet {attrs : Attrs} : ∀ {b : Bytes}, encodeAttributes attrs = .ok b → attributesSay attrs = [] := by
  induction attrs with
  | nil => intro b _; rfl
  | cons e r ih =>
    obtain ⟨name, attr⟩ := e
    intro b h
    rw [encodeAttributes] at h
    obtain ⟨a, h1, h⟩ := Outcome.bind_eq_ok.mp h
    obtain ⟨c, h2, h⟩ := Outcome.bind_eq_ok.mp h
    rw [attributesSay, h1]
    exact ih h2

theorem attributes_told {attrs : Attrs} (h : attributesSay attrs ≠ []) :
    ∃ name attr t, (name, attr) ∈ attrs ∧ TagIn t attr.1 attr.2 ∧ t ∉ knownTags ∧ attributesSay attrs = ascii "uncaught tag " ++ dec t.toNat := by
  induction attrs with
  | nil => exact absurd rfl h
  | cons e r ih =>
    obtain ⟨name, attr⟩ := e
    rw [attributesSay] at h ⊢
    split at h
    · rename_i he
      obtain ⟨n, a, t, h1, h2⟩ := ih h
      exact ⟨n, a, t, List.mem_cons_of_mem _ h1, h2⟩
    · rename_i he
      obtain ⟨t, h1, h2, h3⟩ := val_told _ h
      exact ⟨name, attr, t, List.mem_cons_self, h1, h2, h3⟩

theorem mem_erase {m : Attrs} {k : Bytes} {e : Bytes × Attr} (h : e ∈ KMap.erase m k) : e ∈ m := (List.mem_filter.mp h).1

theorem get_mem {m : Attrs} {k : Bytes} {a : Attr} (h : KMap.get? m k = some a) : (k, a) ∈ m := by
  induction m with
  | nil => cases h
  | cons x r ih =>
    rw [KMap.get?] at h
    split at h
    · rename_i hk
      cases h
      subst hk
      exact List.mem_cons_self
    · exact List.mem_cons_of_mem _ (ih h)

theorem initial_rest {keys : List Bytes} : ∀ {attrs rest : Attrs} {b : Bytes}, encodeInitial keys attrs = .ok (b, rest) → ∀ e ∈ rest, e ∈ attrs := by
  induction keys with
  | nil => intro attrs rest b h; cases h; exact fun _ h => h
  | cons k r ih =>
    intro attrs rest b h e he
    rw [encodeInitial] at h
    split at h
    · obtain ⟨a, h1, h⟩ := Outcome.bind_eq_ok.mp h
      obtain ⟨⟨c, d⟩, h2, h⟩ := Outcome.bind_eq_ok.mp h
      cases h
      exact mem_erase (ih h2 e he)
    · exact ih h e he

theorem op_told {keys : List Bytes} : ∀ {attrs : Attrs}, opSays keys attrs ≠ [] →
    ∃ name attr t, (name, attr) ∈ attrs ∧ TagIn t attr.1 attr.2 ∧ t ∉ knownTags ∧ opSays keys attrs = ascii "uncaught tag " ++ dec t.toNat := by
  induction keys with
  | nil => intro attrs h; rw [opSays] at h ⊢; exact attributes_told h
  | cons k r ih =>
    intro attrs h
    rw [opSays] at h ⊢
    split at h
    · rename_i val hv
      split at h
      · rename_i he
        obtain ⟨n, a, t, h1, h2⟩ := ih h
        exact ⟨n, a, t, mem_erase h1, h2⟩
      · rename_i he
        obtain ⟨t, h1, h2, h3⟩ := val_told _ h
        exact ⟨k, val, t, get_mem hv, h1, h2, h3⟩
    · rename_i hv
      exact ih h

theorem jobs_told {l : List Attrs} (h : jobsSay l ≠ []) :
    ∃ g name attr t, g ∈ l ∧ (name, attr) ∈ g ∧ TagIn t attr.1 attr.2 ∧ t ∉ knownTags ∧ jobsSay l = ascii "uncaught tag " ++ dec t.toNat := by
  induction l with
  | nil => exact absurd rfl h
  | cons g r ih =>
    rw [jobsSay] at h ⊢
    split at h
    · rename_i he
      obtain ⟨g', n, a, t, h1, h2⟩ := ih h
      exact ⟨g', n, a, t, List.mem_cons_of_mem _ h1, h2⟩
    · rename_i he
      obtain ⟨n, a, t, h1, h2, h3, h4⟩ := attributes_told h
      exact ⟨g, n, a, t, List.mem_cons_self, h1, h2, h3, h4⟩

/-! ## Theorems: encoding -/

/-- **C117, messages that go out.** Nothing is said about a message that can be encoded; about one that cannot there is at most one text, which names a tag that one
of its attributes has, or a member of one, and that is none of those that are encoded. -/
theorem C117_encode (reqId : Nat) (m : Msg) :
    ((∃ b, encodeMsg reqId m = .ok b) → encodeSays m = []) ∧
    (encodeSays m ≠ [] → ∃ a t, AttrOf m a ∧ TagIn t a.1 a.2 ∧ t ∉ knownTags ∧ encodeSays m = ascii "uncaught tag " ++ dec t.toNat) := by
  constructor
  · rintro ⟨b, h⟩
    unfold encodeMsg at h
    obtain ⟨⟨i, rest⟩, h1, h⟩ := Outcome.bind_eq_ok.mp h
    obtain ⟨o, h2, h⟩ := Outcome.bind_eq_ok.mp h
    obtain ⟨j, h3, h⟩ := Outcome.bind_eq_ok.mp h
    obtain ⟨p, h4, h⟩ := Outcome.bind_eq_ok.mp h
    unfold encodeSays
    simp only [h1, h2, h3]
    unfold encodePrinter at h4
    split at h4
    · rename_i h0; rw [h0]; rfl
    · obtain ⟨a, h5, _⟩ := Outcome.bind_eq_ok.mp h4
      exact attributes_quiet h5
  · intro h
    unfold encodeSays at *
    split at h
    · rename_i i rest h1
      split at h
      · rename_i o h2
        split at h
        · rename_i j h3
          obtain ⟨n, a, t, hm, h'⟩ := attributes_told h
          exact ⟨a, t, ⟨n, .inr (.inr hm)⟩, h'⟩
        · rename_i h3
          obtain ⟨g, n, a, t, hg, hm, h4, h5, h6⟩ := jobs_told h
          exact ⟨a, t, ⟨n, .inr (.inl ⟨g, hg, hm⟩)⟩, h4, h5, h6⟩
      · rename_i h2
        obtain ⟨n, a, t, hm, h4, h5, h6⟩ := attributes_told h
        exact ⟨a, t, ⟨n, .inl (initial_rest h1 _ hm)⟩, h4, h5, h6⟩
    · rename_i h1
      obtain ⟨n, a, t, hm, h4, h5, h6⟩ := op_told h
      exact ⟨a, t, ⟨n, .inl hm⟩, h4, h5, h6⟩

/-- Two groups of unsupported attributes around another one -/
def unsupportedGroups : List (UInt8 × List (Bytes × Attr)) :=
  [(1, [(ascii "a", (0x44, .str (ascii "b")))]), (5, [(ascii "sides", (0x44, .str (ascii "x")))]), (2, []), (5, [(ascii "n", (0x21, .int 4)), (ascii "n", (0x21, .int 5))])]

example : (∀ g ∈ unsupportedGroups, RecvOk g) ∧ (ofTag 5 unsupportedGroups).length = 2 := by
  refine ⟨?_, by decide +kernel⟩
  intro g hg
  simp only [unsupportedGroups, List.mem_cons, List.not_mem_nil, or_false] at hg
  rcases hg with rfl | rfl | rfl | rfl
  · exact ⟨by simp, fun n a h => by
      simp only [List.mem_singleton, Prod.mk.injEq] at h
      obtain ⟨rfl, rfl⟩ := h
      exact ⟨by decide +kernel, by decide +kernel, by simp only [WellTyped, PlainOk]; exact ⟨by decide, by decide +kernel⟩⟩⟩
  · exact ⟨by simp, fun n a h => by
      simp only [List.mem_singleton, Prod.mk.injEq] at h
      obtain ⟨rfl, rfl⟩ := h
      exact ⟨by decide +kernel, by decide +kernel, by simp only [WellTyped, PlainOk]; exact ⟨by decide, by decide +kernel⟩⟩⟩
  · exact ⟨by simp, fun n a h => by cases h⟩
  · exact ⟨by simp, fun n a h => by
      simp only [List.mem_cons, List.not_mem_nil, or_false, Prod.mk.injEq] at h
      rcases h with ⟨rfl, rfl⟩ | ⟨rfl, rfl⟩ <;>
        exact ⟨by decide +kernel, by decide +kernel, by simp [WellTyped, PlainOk, InInt32]⟩⟩

example : encodeSays { opAttrs := [(ascii "a", (0x4b, .str []))] } = ascii "uncaught tag 75" ∧ encodeSays { jobAttrs := [[(ascii "a", (5, .str []))]] } = ascii "uncaught tag 5" ∧
    encodeSays { jobAttrs := [[(ascii "a", (4, .str []))]] } = [] := by decide +kernel

end Verif.Ipp
