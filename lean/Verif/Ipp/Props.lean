import Verif.Ipp.UbLemmas
import Verif.Core.Lists

/-!
# Properties C21-C25: IPP messages
-/

namespace Verif.Ipp

open Spec Raster

/-- A message with a nested collection, lists of values, and two job groups of which one is empty; used in the examples. -/
def sampleMsg : Msg :=
  { opOrStatus := 2
    opAttrs := [(ascii "attributes-charset", (0x47, .str (ascii "utf-8"))), (ascii "zzz", (0x21, .set [.int 1, .int (-7)]))]
    jobAttrs := [[], [(ascii "media-col", (0x34, .set
      [.coll [(ascii "media-size", (0x34, .coll [(ascii "x", (0x21, .int 21000)), (ascii "y", (0x21, .int 29700))]))],
       .coll [(ascii "media-type", (0x44, .set [.str (ascii "a"), .str []]))]]))]]
    printerAttrs := [] }

theorem sampleMsg_ok : MsgOk sampleMsg := by
  refine ⟨⟨?_, ?_⟩, ?_, ⟨?_, ?_⟩⟩
  · unfold KMap.Sorted; decide
  · intro n a h
    simp only [sampleMsg, List.mem_cons, List.not_mem_nil, or_false, Prod.mk.injEq] at h
    rcases h with ⟨rfl, rfl⟩ | ⟨rfl, rfl⟩
    · exact ⟨by decide, by decide, by simp only [WellTyped, PlainOk]; decide⟩
    · exact ⟨by decide, by decide, by simp only [WellTyped, PlainOk, ListOk, InInt32]; decide⟩
  · intro g hg
    simp only [sampleMsg, List.mem_cons, List.not_mem_nil, or_false] at hg
    rcases hg with rfl | rfl
    · exact ⟨KMap.sorted_nil, fun _ _ h => by cases h⟩
    · refine ⟨by unfold KMap.Sorted; decide, ?_⟩
      intro n a h
      simp only [List.mem_cons, List.not_mem_nil, or_false, Prod.mk.injEq] at h
      obtain ⟨rfl, rfl⟩ := h
      exact ⟨by decide, by decide,
        by simp only [WellTyped, PlainOk, ListOk, MembersOk, InInt32]; unfold KMap.Sorted; decide⟩
  · exact KMap.sorted_nil
  · intro _ _ h; cases h

/-- The message without its job groups that have no attributes (these are not on the wire). -/
def Spec.withoutEmptyJobs (m : Msg) : Msg := { m with jobAttrs := m.jobAttrs.filter (fun g => decide (g ≠ [])) }

/-- The full claim of C21. -/
def C21 : Prop :=
  ∀ (m : Msg), MsgOk m → ∀ (reqId : Nat) (doc : Bytes),
    ∃ bytes, encodeMsg reqId m = .ok bytes ∧ decodeMsg (bytes ++ doc) = .ok (withoutEmptyJobs m, doc)

/-- C21, for document data that does not start with two zero bytes. What is missing: document data that starts with two zero bytes
(`C21_zero_document_false`: it is never read back then). -/
theorem C21_message_roundtrip_partial (m : Msg) (h : MsgOk m) (reqId : Nat) (doc : Bytes) (hd : ∀ r, doc ≠ 0 :: 0 :: r) :
    ∃ bytes, encodeMsg reqId m = .ok bytes ∧ decodeMsg (bytes ++ doc) = .ok (withoutEmptyJobs m, doc) := by
  refine ⟨_, encodeMsg_spec h reqId, ?_⟩
  have hn : NotUnnamed (3 :: doc) := by
    intro t r he
    simp only [List.cons.injEq] at he
    exact hd r he.2
  have := decodeMsg_groups_end (recvOk_msgGroups h) hn m.majVsn m.minVsn m.opOrStatus reqId
  rw [List.append_assoc, List.append_assoc, List.singleton_append, this, storeGroups_msgGroups h]
  rfl

example : ∃ bytes, encodeMsg 77 sampleMsg = .ok bytes ∧
    decodeMsg (bytes ++ ascii "%PDF") = .ok (withoutEmptyJobs sampleMsg, ascii "%PDF") :=
  C21_message_roundtrip_partial sampleMsg sampleMsg_ok 77 (ascii "%PDF") (by intro r h; exact absurd (List.cons.inj h).1 (by decide))

theorem consumeAttribute_zero {name : Bytes} {attr : Attr} (hn : name.length < 65536) (h : WellTyped true attr.1 attr.2)
    (d : Bytes) : consumeAttribute (attrBytes name attr ++ 3 :: 0 :: 0 :: d) = .throws .logicError := by
  obtain ⟨tag, v⟩ := attr
  obtain ⟨w, ts, hw, v', unnamed, hc, hu⟩ := tokens_collectIf h
  have hok := tokens_ok v h
  rw [hw] at hok
  have hd := decodeValue_token (hok _ (List.mem_cons_self ..)) (unnamedBytes ts ++ 3 :: 0 :: 0 :: d)
  have hg := getUnnamed_tokens ts (fun t ht => hok t (List.mem_cons_of_mem _ ht)) (3 :: 0 :: 0 :: d)
  have hbad : getUnnamed (3 :: 0 :: 0 :: d) = .throws .logicError := by
    rw [getUnnamed]
    split
    · rename_i hm; simp [matchBytes, be16, List.isPrefixOf] at hm
    · have : ∀ x, decodeValue 3 x = .throws .logicError := fun x => by rw [decodeValue, show kind 3 = .delimiter by decide]
      split
      · rename_i hdv; rw [this] at hdv; cases hdv
      · rename_i hdv; rw [this] at hdv; cases hdv; rfl
      · rename_i hdv; rw [this] at hdv; cases hdv
      · rename_i hdv; rw [this] at hdv; cases hdv
  rw [hbad] at hg
  simp only [Outcome.bind_throws] at hg
  simp only [attrBytes, hw, tokenBytes, consumeAttribute, List.append_assoc, List.cons_append, List.nil_append, rd8_cons,
    Outcome.bind_ok, rd16_be16, Nat.mod_eq_of_lt hn, rdBytes_append name _ name.length rfl, UInt8.ofNat_toNat]
  simp only at hd
  simp only [hd, Outcome.bind_ok, hg, Outcome.bind_throws]

theorem decodeLoop_group_zero {m : Msg} {cur : UInt8} {g : List (Bytes × Attr)}
    (h : ∀ name attr, (name, attr) ∈ g → name ≠ [] ∧ name.length < 65536 ∧ WellTyped true attr.1 attr.2) (hg : g ≠ [])
    (d : Bytes) (acc : Attrs) : decodeLoop m cur acc (groupBytes g ++ 3 :: 0 :: 0 :: d) = .throws .logicError := by
  induction g generalizing acc with
  | nil => exact absurd rfl hg
  | cons e g ih =>
    have he := h e.1 e.2 (List.mem_cons_self ..)
    have hgs := fun n a hm => h n a (List.mem_cons_of_mem _ hm)
    have hgb : ∀ rest, groupBytes (e :: g) ++ rest = attrBytes e.1 e.2 ++ (groupBytes g ++ rest) := by intro r; simp [groupBytes]
    rw [hgb]
    cases g with
    | nil =>
      have hc := consumeAttribute_zero he.2.1 he.2.2 d
      obtain ⟨x, hx⟩ : ∃ x, attrBytes e.1 e.2 ++ (groupBytes [] ++ 3 :: 0 :: 0 :: d) = e.2.1 :: x :=
        ⟨_, by rw [attrBytes_eq he.2.2]; simp only [List.cons_append]; rfl⟩
      have hx' : attrBytes e.1 e.2 ++ 3 :: 0 :: 0 :: d = e.2.1 :: x := by rw [← hx]; rfl
      rw [hx'] at hc
      rw [hx, decodeLoop_other (wellTyped_tag _ he.2.2), hc]
      rfl
    | cons e' g =>
      have he' := hgs e'.1 e'.2 (List.mem_cons_self ..)
      have hnot : NotUnnamed (groupBytes (e' :: g) ++ 3 :: 0 :: 0 :: d) := by
        rw [groupBytes, List.flatMap_cons, List.append_assoc]
        exact notUnnamed_attr he'.1 he'.2.1 he'.2.2 _
      rw [decodeLoop_attr he.2.1 he.2.2 hnot]
      exact ih hgs (by simp) _

theorem decodeLoop_groups_zero {gs : List (UInt8 × List (Bytes × Attr))} (h : ∀ g ∈ gs, RecvOk g) (hne : ∀ g ∈ gs, g.2 ≠ [])
    (hgs : gs ≠ []) (d : Bytes) (m : Msg) (cur : UInt8) (acc : Attrs) :
    decodeLoop m cur acc (groupsBytes gs ++ 3 :: 0 :: 0 :: d) = .throws .logicError := by
  induction gs generalizing m cur acc with
  | nil => exact absurd rfl hgs
  | cons g gs ih =>
    have hg := h g (List.mem_cons_self ..)
    have hr := fun g' hm => h g' (List.mem_cons_of_mem _ hm)
    have hb : groupsBytes (g :: gs) ++ 3 :: 0 :: 0 :: d = g.1 :: (groupBytes g.2 ++ (groupsBytes gs ++ 3 :: 0 :: 0 :: d)) := by
      simp [groupsBytes]
    rw [hb, decodeLoop_delim (recv_tag hg).1 (recv_tag hg).2]
    cases gs with
    | nil => exact decodeLoop_group_zero hg.2 (hne g (List.mem_cons_self ..)) d _
    | cons g' gs =>
      have hg' := h g' (by simp)
      have hnot : NotUnnamed (groupsBytes (g' :: gs) ++ 3 :: 0 :: 0 :: d) := by
        have hne' := hne g' (by simp)
        rw [groupsBytes, List.flatMap_cons]
        cases hgl : g'.2 with
        | nil => exact absurd hgl hne'
        | cons e l =>
          have he := hg'.2 e.1 e.2 (by rw [hgl]; exact List.mem_cons_self ..)
          rw [groupBytes, List.flatMap_cons, attrBytes_eq he.2.2]
          exact notUnnamed_cons (tag_ne_zero (wellTyped_tag _ he.2.2)) _
      rw [decodeLoop_group hg.2 hnot]
      exact ih hr (fun g hm => hne g (List.mem_cons_of_mem _ hm)) (by simp) _ _ _

/-- C21 fails for every message with operation attributes whose document data starts with two zero bytes: the end-of-attributes tag
and these bytes are taken for an attribute without name. -/
theorem C21_zero_document_false (m : Msg) (h : MsgOk m) (ho : m.opAttrs ≠ []) (reqId : Nat) (d : Bytes) :
    ∃ bytes, encodeMsg reqId m = .ok bytes ∧ decodeMsg (bytes ++ 0 :: 0 :: d) = .throws .logicError := by
  refine ⟨_, encodeMsg_spec h reqId, ?_⟩
  rw [List.append_assoc, List.append_assoc, List.singleton_append, decodeMsg_header]
  refine decodeLoop_groups_zero (recvOk_msgGroups h) ?_ (by simp [msgGroups]) d _ _ _
  intro g hg
  rw [msgGroups] at hg
  rcases List.mem_cons.mp hg with rfl | hg
  · intro he
    have := (splitInitial_perm initialAttrs h.1.1)
    simp only at he
    rw [he] at this
    exact ho this.symm.eq_nil
  · rcases List.mem_append.mp hg with hg | hg
    · obtain ⟨g', hg', rfl⟩ := List.mem_map.mp hg
      have := (List.mem_filter.mp hg').2
      simpa using this
    · split at hg
      · cases hg
      · rename_i hp
        obtain rfl := List.mem_singleton.mp hg
        exact hp

example : ∃ bytes, encodeMsg 1 sampleMsg = .ok bytes ∧ decodeMsg (bytes ++ [0, 0, 1]) = .throws .logicError :=
  C21_zero_document_false sampleMsg sampleMsg_ok (by decide) 1 [1]

theorem C21_message_roundtrip_false : ¬ C21 := by
  intro h
  obtain ⟨b, h1, h2⟩ := h sampleMsg sampleMsg_ok 1 [0, 0]
  obtain ⟨b', h1', h2'⟩ := C21_zero_document_false sampleMsg sampleMsg_ok (by decide) 1 []
  rw [h1] at h1'
  cases h1'
  rw [h2] at h2'
  cases h2'

/-- C22. The operation group is written as first the required attributes that the message has, in the required order, then the others;
together exactly the operation attributes; then each job group that has attributes, then the printer group if it has
attributes, each attribute once, and the end tag. -/
theorem C22_attribute_order (m : Msg) (h : MsgOk m) (reqId : Nat) :
    ∃ first others : List (Bytes × Attr),
      encodeMsg reqId m = .ok (headerBytes m.majVsn m.minVsn m.opOrStatus reqId ++ ([1] ++ groupBytes (first ++ others)) ++
        (m.jobAttrs.filter (fun g => decide (g ≠ []))).flatMap (fun g => 2 :: groupBytes g) ++
        (if m.printerAttrs = [] then [] else 4 :: groupBytes m.printerAttrs) ++ [3]) ∧
      first.map Prod.fst = [ascii "attributes-charset", ascii "attributes-natural-language", ascii "printer-uri", ascii "job-id",
        ascii "requesting-user-name"].filter (fun k => decide (∃ e ∈ m.opAttrs, e.1 = k)) ∧
      (first ++ others).Perm m.opAttrs ∧ ((first ++ others).map Prod.fst).Nodup := by
  refine ⟨(splitInitial initialAttrs m.opAttrs).1, (splitInitial initialAttrs m.opAttrs).2, ?_, ?_,
    splitInitial_perm initialAttrs h.1.1, ?_⟩
  · rw [encodeMsg_spec h, msgGroups]
    simp only [groupsBytes, List.flatMap_cons, List.flatMap_append, List.append_assoc, List.flatMap_map, List.cons_append,
      List.nil_append]
    split <;> simp
  · rw [splitInitial_names initialAttrs (by decide +kernel)]
    apply List.filter_congr
    intro k _
    have : KMap.has m.opAttrs k = true ↔ ∃ e ∈ m.opAttrs, e.1 = k := by
      constructor
      · intro hk
        obtain ⟨v, hv⟩ := Option.isSome_iff_exists.mp hk
        exact ⟨_, KMap.mem_of_get? hv, rfl⟩
      · rintro ⟨e, he, rfl⟩
        exact get?_isSome_of_mem he
    by_cases hk : KMap.has m.opAttrs k = true
    · rw [hk]; exact (decide_eq_true (this.mp hk)).symm
    · rw [Bool.not_eq_true] at hk
      rw [hk]
      refine (decide_eq_false ?_).symm
      rw [← this, hk]; simp
  · rw [((splitInitial_perm initialAttrs h.1.1).map Prod.fst).nodup_iff]
    have := h.1.1
    unfold KMap.Sorted at this
    unfold List.Nodup
    rw [List.pairwise_map]
    exact this.imp (fun hlt => bytesLt_ne hlt)

example : MsgOk sampleMsg := sampleMsg_ok

/-- C23: decoding always ends. -/
theorem C23_decoding_ends (data : Bytes) : decodeMsg data ≠ .hang := decodeMsg_ne_hang data

/-- The full claim of C23. -/
def C23 : Prop := ∀ data : Bytes, (decodeMsg data).Defined

/-- A message that ends within a collection: begin-collection, member name "a", an integer. -/
def truncatedCollection : Bytes :=
  [1, 1, 0, 0, 0, 0, 0, 1, 2, 0x34, 0, 1, 0x63, 0, 0, 0x4A, 0, 0, 0, 1, 0x61, 0x21, 0, 0, 0, 4, 0, 0, 0, 7]

/-- C23 is false: a message that ends within a collection makes the decoder read the front of an empty list. -/
theorem C23_no_ub_false : ¬ C23 := by
  intro h
  have h := h truncatedCollection
  have : decodeMsg truncatedCollection = .ub := by decide +kernel
  rw [this] at h
  exact h

/-- C23 for data in which no run of attributes without name ends within the values of a collection's member. What is missing: data
in which one does (`C23_no_ub_false`). -/
theorem C23_no_ub_partial (data : Bytes)
    (h : ∀ pre rest ts r, data = pre ++ rest → getUnnamed rest = .ok (ts, r) → ¬ EndsInMember ts) :
    (decodeMsg data).Defined := by
  cases hd : decodeMsg data with
  | ok x => exact trivial
  | throws e => exact trivial
  | ub =>
    obtain ⟨pre, rest, ts, r, h1, h2, h3⟩ := decodeMsg_ub hd
    exact absurd h3 (h pre rest ts r h1 h2)
  | hang => exact absurd hd (decodeMsg_ne_hang data)

/-- In particular: data without the tag for member names (no collections with members) is decoded, or refused by an exception. -/
theorem C23_no_members_partial (data : Bytes) (h : (0x4A : UInt8) ∉ data) : (decodeMsg data).Defined := by
  apply C23_no_ub_partial
  rintro pre rest ts r rfl hg ⟨a, key, t, v, b, rfl, -, -⟩
  exact h (List.mem_append_right _ (getUnnamed_tags _ hg (0x4A, key) (by simp)))

example : (decodeMsg (ascii "any text")).Defined := C23_no_members_partial _ (by decide)

example : ∀ pre rest ts r, ([1, 1, 0, 0, 0x4A] : Bytes) = pre ++ rest → getUnnamed rest = .ok (ts, r) → ¬ EndsInMember ts := by
  rintro pre rest ts r he hg ⟨a, key, t, v, b, rfl, -, -⟩
  have hl : ∀ d l r, getUnnamed d = .ok (l, r) → 2 * l.length ≤ d.length := by
    intro d l r h
    fun_induction getUnnamed d generalizing l r <;> try (cases h; done)
    · cases h; simp
    · cases h; simp
    · rename_i hm _ _ hd _ _ hg ih
      cases h
      have := ih _ _ hg
      have h1 := decodeValue_length hd
      have h2 := matchBytes_some hm
      subst h2
      simp at *
      omega
  have h1 := getUnnamed_tags _ hg (0x4A, key) (by simp)
  have h2 := hl _ _ _ hg
  match pre, he with
  | [], he =>
    have he : rest = [1, 1, 0, 0, 0x4A] := by simpa using he.symm
    subst he
    have : getUnnamed [1, 1, 0, 0, 0x4A] = .ok ([], [1, 1, 0, 0, 0x4A]) := by decide +kernel
    rw [this] at hg
    simp at hg
  | [_], he =>
    have he : rest = [1, 0, 0, 0x4A] := by simpa using (List.cons.inj he).2.symm
    subst he
    have : getUnnamed [1, 0, 0, 0x4A] = .throws .logicError := by decide +kernel
    rw [this] at hg
    cases hg
  | _ :: _ :: p, he =>
    have he : p ++ rest = [0, 0, 0x4A] := by simpa using (List.cons.inj (List.cons.inj he).2).2.symm
    have := congrArg List.length he
    simp at this h2
    omega

/-- The decoded group `d` has exactly the attributes of the received group `g`, where for repeated names the first one counts. -/
def Spec.Reports (d : Attrs) (g : List (Bytes × Attr)) : Prop :=
  KMap.Sorted d ∧ ∀ k, KMap.get? d k = (g.find? (fun e => decide (e.1 = k))).map Prod.snd

theorem reports_insertAll (g : List (Bytes × Attr)) : Reports (KMap.insertAll [] g) g := by
  refine ⟨KMap.sorted_insertAll KMap.sorted_nil g, fun k => ?_⟩
  rw [KMap.get?_insertAll KMap.sorted_nil]
  simp only [KMap.get?, Option.none_or]
  induction g with
  | nil => rfl
  | cons e g ih =>
    rw [KMap.get?, List.find?_cons]
    by_cases hk : k = e.1
    · simp [hk]
    · have : ¬ e.1 = k := fun h => hk h.symm
      simp [hk, this, ih]

/-- The full claim of C24: whatever the sequence of groups, with or without end tag, all groups are reported. -/
def C24 : Prop :=
  ∀ (gs : List (UInt8 × List (Bytes × Attr))), (∀ g ∈ gs, RecvOk g) → ∀ (maj min : UInt8) (op : UInt16) (reqId : Nat)
    (ending : Bytes), ending = [] ∨ ending = [3] →
    ∃ m, decodeMsg (headerBytes maj min op reqId ++ (groupsBytes gs ++ ending)) = .ok (m, []) ∧
      All2 Reports m.jobAttrs (ofTag 2 gs) ∧ (∀ g ∈ ofTag 1 gs, Reports m.opAttrs g) ∧ (∀ g ∈ ofTag 4 gs, Reports m.printerAttrs g)

theorem all2_map {α β : Type} {R : β → α → Prop} {f : α → β} (h : ∀ a, R (f a) a) (l : List α) : All2 R (l.map f) l := by
  induction l with
  | nil => exact .nil
  | cons a l ih => exact .cons (h a) ih

/-- C24 for messages that end with the end-of-attributes tag: job groups are all reported, in order; of the operation
groups and of the printer groups the last one. What is missing: earlier ones (`C24_repeated_group_false`), and
messages without end tag (`C24_groups_unterminated_partial`). -/
theorem C24_groups_partial (gs : List (UInt8 × List (Bytes × Attr))) (h : ∀ g ∈ gs, RecvOk g) (maj min : UInt8) (op : UInt16)
    (reqId : Nat) (doc : Bytes) (hd : ∀ r, doc ≠ 0 :: 0 :: r) :
    ∃ m, decodeMsg (headerBytes maj min op reqId ++ (groupsBytes gs ++ 3 :: doc)) = .ok (m, doc) ∧
      m.majVsn = maj ∧ m.minVsn = min ∧ m.opOrStatus = op ∧
      All2 Reports m.jobAttrs (ofTag 2 gs) ∧ Reports m.opAttrs (lastOfTag 1 gs) ∧ Reports m.printerAttrs (lastOfTag 4 gs) := by
  have hn : NotUnnamed (3 :: doc) := by
    intro t r he
    simp only [List.cons.injEq] at he
    exact hd r he.2
  refine ⟨_, decodeMsg_groups_end h hn maj min op reqId, (storeGroups_vsn _ gs).1, (storeGroups_vsn _ gs).2.1,
    (storeGroups_vsn _ gs).2.2, ?_, ?_, ?_⟩
  · rw [storeGroups_job]; exact all2_map reports_insertAll _
  · rw [storeGroups_op rfl]; exact reports_insertAll _
  · rw [storeGroups_printer rfl]; exact reports_insertAll _

/-- The document data starts with two zero bytes, and the last group before it has attributes: the end tag and these bytes look like an attribute
without name. -/
def Spec.Swallowed (gs : List (UInt8 × List (Bytes × Attr))) (doc : Bytes) : Prop :=
  (∃ r, doc = 0 :: 0 :: r) ∧ ∃ g, gs.getLast? = some g ∧ g.2 ≠ []

theorem decodeLoop_groups_zero_any {gs : List (UInt8 × List (Bytes × Attr))} (h : ∀ g ∈ gs, RecvOk g) (d : Bytes) (m : Msg) (cur : UInt8) (acc : Attrs) :
    ((∃ g, gs.getLast? = some g ∧ g.2 ≠ []) → decodeLoop m cur acc (groupsBytes gs ++ 3 :: 0 :: 0 :: d) = .throws .logicError) ∧
    ((¬ ∃ g, gs.getLast? = some g ∧ g.2 ≠ []) →
      decodeLoop m cur acc (groupsBytes gs ++ 3 :: 0 :: 0 :: d) = .ok (storeGroups (storeGroup m cur acc) gs, 0 :: 0 :: d)) := by
  induction gs generalizing m cur acc with
  | nil => exact ⟨fun ⟨g, hg, _⟩ => (by cases hg), fun _ => decodeLoop_end m cur acc _⟩
  | cons g gs ih =>
    have hg := h g (List.mem_cons_self ..)
    have hr := fun g' hm => h g' (List.mem_cons_of_mem _ hm)
    have hb : groupsBytes (g :: gs) ++ 3 :: 0 :: 0 :: d = g.1 :: (groupBytes g.2 ++ (groupsBytes gs ++ 3 :: 0 :: 0 :: d)) := by
      simp [groupsBytes]
    rw [hb, decodeLoop_delim (recv_tag hg).1 (recv_tag hg).2]
    cases gs with
    | nil =>
      refine ⟨fun ⟨x, hx, hne⟩ => ?_, fun hn => ?_⟩
      · simp only [List.getLast?_singleton, Option.some.injEq] at hx
        subst hx
        exact decodeLoop_group_zero hg.2 hne d _
      · have he : g.2 = [] := Classical.byContradiction fun hne => hn ⟨g, rfl, hne⟩
        obtain ⟨t, l⟩ := g
        simp only at he
        subst he
        exact decodeLoop_end _ _ _ _
    | cons g' gs =>
      have hg' := h g' (by simp)
      have hne' : g'.1 ≠ 0 := by rcases hg'.1 with h | h | h | h <;> rw [h] <;> decide
      have hnot : NotUnnamed (groupsBytes (g' :: gs) ++ 3 :: 0 :: 0 :: d) := by
        rw [groupsBytes, List.flatMap_cons]
        cases hgl : g'.2 with
        | nil =>
          cases gs with
          | nil => exact notUnnamed_cons (by decide) _
          | cons g'' gs =>
            have hg'' := h g'' (by simp)
            have hne'' : g''.1 ≠ 0 := by rcases hg''.1 with h | h | h | h <;> rw [h] <;> decide
            exact notUnnamed_cons hne'' _
        | cons e l =>
          have he := hg'.2 e.1 e.2 (by rw [hgl]; exact List.mem_cons_self ..)
          rw [groupBytes, List.flatMap_cons, attrBytes_eq he.2.2]
          exact notUnnamed_cons (tag_ne_zero (wellTyped_tag _ he.2.2)) _
      rw [decodeLoop_group hg.2 hnot, List.getLast?_cons_cons]
      exact ih hr _ _ _

/-- C24 for all messages that end with the end-of-attributes tag, whatever follows it: unless the end tag is taken for an attribute, which ends
the decoding with an exception, the job groups are all reported, in order; of the operation groups and of the printer groups the last one. -/
theorem C24_groups_exact (gs : List (UInt8 × List (Bytes × Attr))) (h : ∀ g ∈ gs, RecvOk g) (maj min : UInt8) (op : UInt16)
    (reqId : Nat) (doc : Bytes) :
    (Swallowed gs doc → decodeMsg (headerBytes maj min op reqId ++ (groupsBytes gs ++ 3 :: doc)) = .throws .logicError) ∧
    (¬ Swallowed gs doc → ∃ m, decodeMsg (headerBytes maj min op reqId ++ (groupsBytes gs ++ 3 :: doc)) = .ok (m, doc) ∧
      m.majVsn = maj ∧ m.minVsn = min ∧ m.opOrStatus = op ∧
      All2 Reports m.jobAttrs (ofTag 2 gs) ∧ Reports m.opAttrs (lastOfTag 1 gs) ∧ Reports m.printerAttrs (lastOfTag 4 gs)) := by
  by_cases hd : ∃ r, doc = 0 :: 0 :: r
  · obtain ⟨r, rfl⟩ := hd
    refine ⟨fun hs => ?_, fun hs => ?_⟩
    · rw [decodeMsg_header]
      exact (decodeLoop_groups_zero_any h r _ _ _).1 hs.2
    · have := (decodeLoop_groups_zero_any h r { majVsn := maj, minVsn := min, opOrStatus := op } tEndAttrs []).2 (fun hg => hs ⟨⟨r, rfl⟩, hg⟩)
      rw [storeGroup_end] at this
      refine ⟨_, by rw [decodeMsg_header, this], (storeGroups_vsn _ gs).1, (storeGroups_vsn _ gs).2.1, (storeGroups_vsn _ gs).2.2, ?_, ?_, ?_⟩
      · rw [storeGroups_job]; exact all2_map reports_insertAll _
      · rw [storeGroups_op rfl]; exact reports_insertAll _
      · rw [storeGroups_printer rfl]; exact reports_insertAll _
  · exact ⟨fun hs => absurd hs.1 hd, fun _ => C24_groups_partial gs h maj min op reqId doc (fun r hr => hd ⟨r, hr⟩)⟩

/-- Received groups used in the examples: two job groups, one with a repeated name and names out of order. -/
def sampleGroups : List (UInt8 × List (Bytes × Attr)) :=
  [(1, [(ascii "z", (0x21, .int 1))]), (2, []), (2, [(ascii "b", (0x44, .str (ascii "x"))), (ascii "a", (0x22, .bool true)),
    (ascii "b", (0x44, .str (ascii "y")))]), (4, [(ascii "p", (0x21, .int 2))])]

theorem sampleGroups_ok : ∀ g ∈ sampleGroups, RecvOk g := by
  intro g hg
  simp only [sampleGroups, List.mem_cons, List.not_mem_nil, or_false] at hg
  rcases hg with rfl | rfl | rfl | rfl
  · refine ⟨by simp, fun n a h => ?_⟩
    simp only [List.mem_cons, List.not_mem_nil, or_false, Prod.mk.injEq] at h
    obtain ⟨rfl, rfl⟩ := h
    exact ⟨by decide, by decide, by simp only [WellTyped, PlainOk, InInt32]; decide⟩
  · exact ⟨by simp, fun n a h => by cases h⟩
  · refine ⟨by simp, fun n a h => ?_⟩
    simp only [List.mem_cons, List.not_mem_nil, or_false, Prod.mk.injEq] at h
    rcases h with ⟨rfl, rfl⟩ | ⟨rfl, rfl⟩ | ⟨rfl, rfl⟩
    · exact ⟨by decide, by decide, by simp only [WellTyped, PlainOk]; decide⟩
    · exact ⟨by decide, by decide, by simp only [WellTyped, PlainOk]⟩
    · exact ⟨by decide, by decide, by simp only [WellTyped, PlainOk]; decide⟩
  · refine ⟨by simp, fun n a h => ?_⟩
    simp only [List.mem_cons, List.not_mem_nil, or_false, Prod.mk.injEq] at h
    obtain ⟨rfl, rfl⟩ := h
    exact ⟨by decide, by decide, by simp only [WellTyped, PlainOk, InInt32]; decide⟩

example : ∃ m, decodeMsg (headerBytes 2 0 0 9 ++ (groupsBytes sampleGroups ++ 3 :: [])) = .ok (m, []) ∧
    All2 Reports m.jobAttrs (ofTag 2 sampleGroups) := by
  obtain ⟨m, h1, -, -, -, h2, -, -⟩ := C24_groups_partial sampleGroups sampleGroups_ok 2 0 0 9 [] (by simp)
  exact ⟨m, h1, h2⟩

/-- Without end tag the message is that of all groups but the last. -/
theorem C24_groups_unterminated_partial (gs : List (UInt8 × List (Bytes × Attr))) (h : ∀ g ∈ gs, RecvOk g) (maj min : UInt8)
    (op : UInt16) (reqId : Nat) :
    decodeMsg (headerBytes maj min op reqId ++ groupsBytes gs) =
      decodeMsg (headerBytes maj min op reqId ++ (groupsBytes gs.dropLast ++ [3])) := by
  rw [decodeMsg_header, decodeLoop_groups_open h, storeGroup_end,
    decodeMsg_groups_end (fun g hm => h g (List.dropLast_subset _ hm)) (notUnnamed_single 3)]
  split
  · rename_i he; rw [he]; rfl
  · rfl

example : ∀ g ∈ sampleGroups, RecvOk g := sampleGroups_ok

/-- a document that is swallowed, and two that are not -/
example : Swallowed sampleGroups [0, 0, 7] ∧ ¬ Swallowed sampleGroups [0, 1] ∧ ¬ Swallowed [(1, [(ascii "z", (0x21, .int 1))]), (2, [])] [0, 0, 7] := by
  refine ⟨⟨⟨[7], rfl⟩, _, rfl, by simp⟩, fun ⟨⟨r, h⟩, _⟩ => by simp at h, fun ⟨_, g, h, hne⟩ => ?_⟩
  simp at h
  subst h
  exact hne rfl

/-- C24 is false: of two printer groups the first is lost. -/
theorem C24_repeated_group_false :
    ∃ (g1 g2 : List (Bytes × Attr)) (m : Msg), RecvOk (4, g1) ∧ RecvOk (4, g2) ∧
      decodeMsg (headerBytes 1 1 0 1 ++ (groupsBytes [(4, g1), (4, g2)] ++ [3])) = .ok (m, []) ∧
      (ascii "a", ((0x22 : UInt8), Value.bool true)) ∈ g1 ∧ KMap.get? m.printerAttrs (ascii "a") = none := by
  refine ⟨[(ascii "a", (0x22, .bool true))], [(ascii "b", (0x22, .bool true))],
    { printerAttrs := [(ascii "b", (0x22, .bool true))] }, ⟨by simp, fun n a h => ?_⟩, ⟨by simp, fun n a h => ?_⟩,
    by decide +kernel, by simp, by decide +kernel⟩
  all_goals
    simp only [List.mem_cons, List.not_mem_nil, or_false, Prod.mk.injEq] at h
    obtain ⟨rfl, rfl⟩ := h
    exact ⟨by decide, by decide, by simp only [WellTyped, PlainOk]⟩

/-- C24 is false: a message without end tag is silently truncated. -/
theorem C24_groups_false : ¬ C24 := by
  intro h
  have hok : ∀ g ∈ [((2 : UInt8), [(ascii "a", ((0x22 : UInt8), Value.bool true))])], RecvOk g := by
    intro g hg
    obtain rfl := List.mem_singleton.mp hg
    refine ⟨by simp, fun n a h => ?_⟩
    simp only [List.mem_cons, List.not_mem_nil, or_false, Prod.mk.injEq] at h
    obtain ⟨rfl, rfl⟩ := h
    exact ⟨by decide, by decide, by simp only [WellTyped, PlainOk]⟩
  obtain ⟨m, h1, h2, -, -⟩ := h _ hok 1 1 0 1 [] (.inl rfl)
  have : decodeMsg (headerBytes 1 1 0 1 ++ (groupsBytes [((2 : UInt8), [(ascii "a", ((0x22 : UInt8), Value.bool true))])] ++ [])) =
    .ok ({}, []) := by decide +kernel
  rw [this] at h1
  cases h1
  cases h2

/-! ## Request ids -/

/-- The results of encoding messages one after the other, starting with a value of `_reqId`. -/
def encodeAll (reqId : Nat) : List Msg → List (Outcome Bytes)
  | [] => []
  | m :: r => encodeMsg reqId m :: encodeAll (nextReqId reqId) r

theorem encodeAll_get (reqId : Nat) (hr : reqId < 4294967296) (ms : List Msg) (n : Nat) :
    (encodeAll reqId ms)[n]? = ms[n]?.map (encodeMsg ((reqId + n) % 4294967296)) := by
  induction ms generalizing reqId n with
  | nil => simp [encodeAll]
  | cons m ms ih =>
    cases n with
    | zero => simp [encodeAll, Nat.mod_eq_of_lt hr]
    | succ n =>
      simp only [encodeAll, List.getElem?_cons_succ]
      rw [ih (nextReqId reqId) (Nat.mod_lt _ (by decide))]
      simp only [nextReqId]
      congr 2
      omega

/-- Encoding is the header with the request id and a rest that does not depend on it. -/
theorem encodeMsg_split (m : Msg) : (∃ e : Outcome Bytes, (∀ b, e ≠ .ok b) ∧ ∀ id, encodeMsg id m = e) ∨
    ∃ rest, ∀ id, encodeMsg id m = .ok ([m.majVsn, m.minVsn] ++ be16 m.opOrStatus.toNat ++ be32 id ++ rest) := by
  unfold encodeMsg
  cases h1 : encodeInitial initialAttrs m.opAttrs with
  | ok x =>
    obtain ⟨i, r⟩ := x
    simp only [Outcome.bind_ok]
    cases h2 : encodeAttributes r with
    | ok op =>
      cases h3 : encodeJobs m.jobAttrs with
      | ok jobs =>
        cases h4 : encodePrinter m.printerAttrs with
        | ok pr =>
          refine .inr ⟨[tOpAttrs] ++ i ++ op ++ jobs ++ pr ++ [tEndAttrs], fun id => ?_⟩
          simp
        | throws e => exact .inl ⟨.throws e, by simp, fun _ => rfl⟩
        | ub => exact .inl ⟨.ub, by simp, fun _ => rfl⟩
        | hang => exact .inl ⟨.hang, by simp, fun _ => rfl⟩
      | throws e => exact .inl ⟨.throws e, by simp, fun _ => rfl⟩
      | ub => exact .inl ⟨.ub, by simp, fun _ => rfl⟩
      | hang => exact .inl ⟨.hang, by simp, fun _ => rfl⟩
    | throws e => exact .inl ⟨.throws e, by simp, fun _ => rfl⟩
    | ub => exact .inl ⟨.ub, by simp, fun _ => rfl⟩
    | hang => exact .inl ⟨.hang, by simp, fun _ => rfl⟩
  | throws e => exact .inl ⟨.throws e, by simp, fun _ => rfl⟩
  | ub => exact .inl ⟨.ub, by simp, fun _ => rfl⟩
  | hang => exact .inl ⟨.hang, by simp, fun _ => rfl⟩

/-- The request id of encoded bytes: bytes 4 to 7. -/
def Spec.reqIdOf (b : Bytes) : Bytes := (b.drop 4).take 4

theorem be32_inj {a b : Nat} (ha : a < 4294967296) (hb : b < 4294967296) (h : be32 a = be32 b) : a = b := by
  have h1 := rd32_be32 a []
  rw [h, rd32_be32] at h1
  simp only [Outcome.ok.injEq, Prod.mk.injEq] at h1
  omega

/-- C25. The n-th message (from 0) carries the request id `first + n` modulo 2^32; messages less than 2^32 apart carry different ids; and
apart from the id the bytes are a function of the message. -/
theorem C25_request_ids (reqId : Nat) (hr : reqId < 4294967296) (ms : List Msg) :
    (∀ n b, (encodeAll reqId ms)[n]? = some (.ok b) → reqIdOf b = be32 ((reqId + n) % 4294967296)) ∧
    (∀ i j bi bj, i < j → j - i < 4294967296 → (encodeAll reqId ms)[i]? = some (.ok bi) →
      (encodeAll reqId ms)[j]? = some (.ok bj) → reqIdOf bi ≠ reqIdOf bj) ∧
    (∀ (i j : Nat) (oi oj : Outcome Bytes), ms[i]? = ms[j]? → (encodeAll reqId ms)[i]? = some oi → (encodeAll reqId ms)[j]? = some oj →
      oi = oj ∨ ∃ bi bj, oi = .ok bi ∧ oj = .ok bj ∧ bi.take 4 = bj.take 4 ∧ bi.drop 8 = bj.drop 8) := by
  have hid : ∀ n b, (encodeAll reqId ms)[n]? = some (.ok b) → reqIdOf b = be32 ((reqId + n) % 4294967296) := by
    intro n b h
    rw [encodeAll_get reqId hr] at h
    cases hm : ms[n]? with
    | none => rw [hm] at h; cases h
    | some m =>
      rw [hm] at h
      simp only [Option.map_some, Option.some.injEq] at h
      rcases encodeMsg_split m with ⟨e, h1, h2⟩ | ⟨rest, h2⟩
      · rw [h2] at h; exact absurd h (h1 b)
      · rw [h2] at h
        cases h
        simp [reqIdOf, be16, be32]
  refine ⟨hid, ?_, ?_⟩
  · intro i j bi bj hij hd hi hj he
    rw [hid i bi hi, hid j bj hj] at he
    have := be32_inj (Nat.mod_lt _ (by decide)) (Nat.mod_lt _ (by decide)) he
    omega
  · intro i j oi oj hm hi hj
    rw [encodeAll_get reqId hr] at hi hj
    rw [← hm] at hj
    cases hmi : ms[i]? with
    | none => rw [hmi] at hi; cases hi
    | some m =>
      rw [hmi] at hi hj
      simp only [Option.map_some, Option.some.injEq] at hi hj
      rcases encodeMsg_split m with ⟨e, h1, h2⟩ | ⟨rest, h2⟩
      · left; rw [← hi, ← hj, h2, h2]
      · right
        rw [h2] at hi hj
        exact ⟨_, _, hi.symm, hj.symm, by simp [be16, be32], by simp [be16, be32]⟩

example : ∃ b0 b1, (encodeAll 4294967295 [sampleMsg, sampleMsg])[0]? = some (.ok b0) ∧
    (encodeAll 4294967295 [sampleMsg, sampleMsg])[1]? = some (.ok b1) :=
  ⟨_, _, congrArg some (encodeMsg_spec sampleMsg_ok _), congrArg some (encodeMsg_spec sampleMsg_ok _)⟩

end Verif.Ipp
