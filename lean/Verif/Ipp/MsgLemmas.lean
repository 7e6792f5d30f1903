import Verif.Ipp.DecodeLemmas

/-!
# Groups and messages
-/

namespace Verif.Ipp

open Spec Raster

/-- Groups on the wire: each starts with its tag. -/
def Spec.groupsBytes (gs : List (UInt8 × List (Bytes × Attr))) : Bytes := gs.flatMap (fun g => g.1 :: groupBytes g.2)

/-- A received group: a group tag other than end-of-attributes, and well-typed attributes with names; names may repeat and come in any
order. -/
def Spec.RecvOk (g : UInt8 × List (Bytes × Attr)) : Prop :=
  (g.1 = 1 ∨ g.1 = 2 ∨ g.1 = 4 ∨ g.1 = 5) ∧
    ∀ name attr, (name, attr) ∈ g.2 → name ≠ [] ∧ name.length < 65536 ∧ WellTyped true attr.1 attr.2

theorem wellTyped_tag : (v : Value) → ∀ {top : Bool} {tag : UInt8}, WellTyped top tag v → ¬ tag ≤ 5
  | .set [], _, _, h => by simp [WellTyped] at h
  | .set (v :: r), _, tag, h => by
    simp only [WellTyped, ListOk] at h
    exact wellTyped_tag v h.2.2.1
  | .coll m, _, _, h => by simp only [WellTyped] at h; rw [h.1]; decide
  | .int i, _, _, h => by simp only [WellTyped] at h; rcases h.1 with rfl | rfl <;> decide
  | .bool i, _, _, h => by simp only [WellTyped, PlainOk] at h; subst h; decide
  | .date i, _, _, h => by simp only [WellTyped, PlainOk] at h; subst h; decide
  | .res _ _ _, _, _, h => by simp only [WellTyped, PlainOk] at h; subst h; decide
  | .range _ _, _, _, h => by simp only [WellTyped, PlainOk] at h; rw [h.1]; decide
  | .str _, _, _, h => by
    simp only [WellTyped] at h
    have h := h.1
    simp only [stringTags, List.mem_cons, List.not_mem_nil, or_false] at h
    rcases h with rfl | rfl | rfl | rfl | rfl | rfl | rfl | rfl | rfl | rfl | rfl <;> decide

theorem tag_ne_zero {tag : UInt8} (h : ¬ tag ≤ 5) : tag ≠ 0 := by
  rintro rfl; exact h (by decide)

theorem notUnnamed_cons {t x : UInt8} (h : x ≠ 0) (r : Bytes) : NotUnnamed (t :: x :: r) := by
  intro t' r' he
  simp only [List.cons.injEq] at he
  exact h he.2.1

theorem notUnnamed_nil : NotUnnamed [] := by intro t r h; cases h

theorem notUnnamed_single (t : UInt8) : NotUnnamed [t] := by intro t r h; cases h

theorem notUnnamed_attr {name : Bytes} {attr : Attr} (hn : name ≠ []) (hl : name.length < 65536)
    (h : WellTyped true attr.1 attr.2) (r : Bytes) : NotUnnamed (attrBytes name attr ++ r) := by
  rw [attrBytes_eq h]
  intro t r' he
  simp only [be16, List.append_assoc, List.cons_append, List.nil_append, List.cons.injEq] at he
  have hpos : 0 < name.length := List.length_pos_iff.mpr hn
  have h1 := congrArg UInt8.toNat he.2.1
  have h2 := congrArg UInt8.toNat he.2.2.1
  simp at h1 h2
  omega

theorem decodeLoop_delim {m : Msg} {cur t : UInt8} {acc : Attrs} (h1 : t ≤ 5) (h2 : t ≠ 3) (r : Bytes) :
    decodeLoop m cur acc (t :: r) = decodeLoop (storeGroup m cur acc) t [] r := by
  rw [decodeLoop.eq_def]
  simp only [if_pos h1, if_neg h2]

theorem decodeLoop_end (m : Msg) (cur : UInt8) (acc : Attrs) (r : Bytes) :
    decodeLoop m cur acc (3 :: r) = .ok (storeGroup m cur acc, r) := by
  rw [decodeLoop.eq_def]
  simp only [if_pos (show (3 : UInt8) ≤ 5 by decide), if_true]

theorem decodeLoop_nil (m : Msg) (cur : UInt8) (acc : Attrs) : decodeLoop m cur acc [] = .ok (m, []) := by
  rw [decodeLoop.eq_def]

theorem decodeLoop_other {m : Msg} {cur t : UInt8} {acc : Attrs} (h : ¬ t ≤ 5) (r : Bytes) :
    decodeLoop m cur acc (t :: r) =
      (do let (name, attr, r') ← consumeAttribute (t :: r); decodeLoop m cur (acc.insertNew name attr) r') := by
  rw [decodeLoop.eq_def]
  simp only [if_neg h]
  split <;> rename_i hc <;> rw [hc] <;> rfl

theorem decodeLoop_attr {m : Msg} {cur : UInt8} {acc : Attrs} {name : Bytes} {attr : Attr} (hl : name.length < 65536)
    (h : WellTyped true attr.1 attr.2) {rest : Bytes} (hr : NotUnnamed rest) :
    decodeLoop m cur acc (attrBytes name attr ++ rest) = decodeLoop m cur (acc.insertNew name attr) rest := by
  have hc := consumeAttribute_spec hl h hr
  obtain ⟨x, hx⟩ : ∃ x, attrBytes name attr ++ rest = attr.1 :: x := ⟨_, by rw [attrBytes_eq h]; simp only [List.cons_append]; rfl⟩
  rw [hx] at hc ⊢
  rw [decodeLoop_other (wellTyped_tag _ h), hc]
  rfl

theorem notUnnamed_group {g : List (Bytes × Attr)}
    (h : ∀ name attr, (name, attr) ∈ g → name ≠ [] ∧ name.length < 65536 ∧ WellTyped true attr.1 attr.2)
    {rest : Bytes} (hr : NotUnnamed rest) : NotUnnamed (groupBytes g ++ rest) := by
  cases g with
  | nil => exact hr
  | cons e g =>
    have := h e.1 e.2 (List.mem_cons_self ..)
    rw [groupBytes, List.flatMap_cons, List.append_assoc]
    exact notUnnamed_attr this.1 this.2.1 this.2.2 _

theorem decodeLoop_group {m : Msg} {cur : UInt8} {g : List (Bytes × Attr)}
    (h : ∀ name attr, (name, attr) ∈ g → name ≠ [] ∧ name.length < 65536 ∧ WellTyped true attr.1 attr.2)
    {rest : Bytes} (hr : NotUnnamed rest) (acc : Attrs) :
    decodeLoop m cur acc (groupBytes g ++ rest) = decodeLoop m cur (KMap.insertAll acc g) rest := by
  induction g generalizing acc with
  | nil => rfl
  | cons e g ih =>
    have he := h e.1 e.2 (List.mem_cons_self ..)
    have hg := fun n a hm => h n a (List.mem_cons_of_mem _ hm)
    have hgb : groupBytes (e :: g) ++ rest = attrBytes e.1 e.2 ++ (groupBytes g ++ rest) := by simp [groupBytes]
    rw [hgb, decodeLoop_attr he.2.1 he.2.2 (notUnnamed_group hg hr)]
    exact ih hg _

/-- The second byte of groups followed by an end is not 0. -/
theorem notUnnamed_groups {gs : List (UInt8 × List (Bytes × Attr))} (h : ∀ g ∈ gs, RecvOk g) {rest : Bytes}
    (hr : NotUnnamed rest) (h0 : ∀ r, rest ≠ 0 :: r) (t : UInt8)
    (hne : gs ≠ [] ∨ NotUnnamed (t :: rest)) : NotUnnamed (groupsBytes gs ++ rest) ∧ NotUnnamed (t :: (groupsBytes gs ++ rest)) := by
  cases gs with
  | nil =>
    refine ⟨hr, ?_⟩
    rcases hne with hne | hne
    · exact absurd rfl hne
    · exact hne
  | cons g gs =>
    have hg := h g (List.mem_cons_self ..)
    have hne : g.1 ≠ 0 := by rcases hg.1 with h | h | h | h <;> rw [h] <;> decide
    refine ⟨?_, ?_⟩
    · rw [groupsBytes, List.flatMap_cons]
      simp only [List.cons_append]
      cases hgl : g.2 with
      | nil =>
        cases gs with
        | nil =>
          cases rest with
          | nil => exact notUnnamed_single _
          | cons x rest => exact notUnnamed_cons (fun h => h0 rest (by rw [h])) _
        | cons g' gs =>
          have hg' := h g' (by simp)
          have hne' : g'.1 ≠ 0 := by rcases hg'.1 with h | h | h | h <;> rw [h] <;> decide
          exact notUnnamed_cons hne' _
      | cons e l =>
        have he := hg.2 e.1 e.2 (by rw [hgl]; exact List.mem_cons_self ..)
        rw [groupBytes, List.flatMap_cons, attrBytes_eq he.2.2]
        exact notUnnamed_cons (tag_ne_zero (wellTyped_tag _ he.2.2)) _
    · exact notUnnamed_cons hne _

/-- Storing groups one after the other. -/
def storeGroups (m : Msg) (gs : List (UInt8 × List (Bytes × Attr))) : Msg :=
  gs.foldl (fun m g => storeGroup m g.1 (KMap.insertAll [] g.2)) m

theorem recv_tag {g : UInt8 × List (Bytes × Attr)} (h : RecvOk g) : g.1 ≤ 5 ∧ g.1 ≠ 3 := by
  rcases h.1 with h | h | h | h <;> rw [h] <;> decide

theorem decodeLoop_groups_end {gs : List (UInt8 × List (Bytes × Attr))} (h : ∀ g ∈ gs, RecvOk g) {doc : Bytes}
    (hd : NotUnnamed (3 :: doc)) (m : Msg) (cur : UInt8) (acc : Attrs) :
    decodeLoop m cur acc (groupsBytes gs ++ 3 :: doc) = .ok (storeGroups (storeGroup m cur acc) gs, doc) := by
  induction gs generalizing m cur acc with
  | nil => exact decodeLoop_end m cur acc doc
  | cons g gs ih =>
    have hg := h g (List.mem_cons_self ..)
    have hgs := fun g' hm => h g' (List.mem_cons_of_mem _ hm)
    have hnot : NotUnnamed (groupsBytes gs ++ 3 :: doc) := by
      refine (notUnnamed_groups hgs hd (by simp) 1 ?_).1
      exact .inr (notUnnamed_cons (by decide) _)
    rw [groupsBytes, List.flatMap_cons]
    simp only [List.cons_append, List.append_assoc]
    rw [decodeLoop_delim (recv_tag hg).1 (recv_tag hg).2]
    have := decodeLoop_group (m := storeGroup m cur acc) (cur := g.1) hg.2 hnot []
    rw [groupsBytes] at this
    rw [this]
    exact ih hgs _ _ _

/-- Without end-of-attributes the last group is lost. -/
theorem decodeLoop_groups_open {gs : List (UInt8 × List (Bytes × Attr))} (h : ∀ g ∈ gs, RecvOk g)
    (m : Msg) (cur : UInt8) (acc : Attrs) :
    decodeLoop m cur acc (groupsBytes gs) =
      .ok (if gs = [] then m else storeGroups (storeGroup m cur acc) gs.dropLast, []) := by
  induction gs generalizing m cur acc with
  | nil => exact decodeLoop_nil m cur acc
  | cons g gs ih =>
    have hg := h g (List.mem_cons_self ..)
    have hgs := fun g' hm => h g' (List.mem_cons_of_mem _ hm)
    have hnot : NotUnnamed (groupsBytes gs) := by
      have := (notUnnamed_groups hgs notUnnamed_nil (by simp) 1 (.inr (notUnnamed_single _))).1
      simpa using this
    rw [groupsBytes, List.flatMap_cons]
    simp only [List.cons_append]
    rw [decodeLoop_delim (recv_tag hg).1 (recv_tag hg).2]
    have := decodeLoop_group (m := storeGroup m cur acc) (cur := g.1) hg.2 hnot []
    rw [groupsBytes] at this
    rw [this]
    have := ih hgs (storeGroup m cur acc) g.1 (KMap.insertAll [] g.2)
    rw [groupsBytes] at this
    rw [this]
    cases gs with
    | nil => simp [storeGroups]
    | cons g' gs => simp [storeGroups]

/-- The fixed part at the start of a message. -/
def Spec.headerBytes (maj min : UInt8) (op : UInt16) (reqId : Nat) : Bytes :=
  [maj, min] ++ (be16 op.toNat ++ be32 reqId)

theorem decodeMsg_header (maj min : UInt8) (op : UInt16) (reqId : Nat) (r : Bytes) :
    decodeMsg (headerBytes maj min op reqId ++ r) =
      decodeLoop { majVsn := maj, minVsn := min, opOrStatus := op } tEndAttrs [] r := by
  have := op.toNat_lt
  simp [headerBytes, decodeMsg, List.append_assoc]

theorem storeGroup_end (m : Msg) (acc : Attrs) : storeGroup m tEndAttrs acc = m := by
  simp [storeGroup, show ¬ (tEndAttrs = tOpAttrs) by decide, show ¬ (tEndAttrs = tJobAttrs) by decide,
    show ¬ (tEndAttrs = tPrinterAttrs) by decide]

theorem decodeMsg_groups_end {gs : List (UInt8 × List (Bytes × Attr))} (h : ∀ g ∈ gs, RecvOk g) {doc : Bytes}
    (hd : NotUnnamed (3 :: doc)) (maj min : UInt8) (op : UInt16) (reqId : Nat) :
    decodeMsg (headerBytes maj min op reqId ++ (groupsBytes gs ++ 3 :: doc)) =
      .ok (storeGroups { majVsn := maj, minVsn := min, opOrStatus := op } gs, doc) := by
  rw [decodeMsg_header, decodeLoop_groups_end h hd, storeGroup_end]

/-! ## What is stored -/

theorem storeGroups_vsn (m : Msg) (gs : List (UInt8 × List (Bytes × Attr))) :
    (storeGroups m gs).majVsn = m.majVsn ∧ (storeGroups m gs).minVsn = m.minVsn ∧ (storeGroups m gs).opOrStatus = m.opOrStatus := by
  induction gs generalizing m with
  | nil => exact ⟨rfl, rfl, rfl⟩
  | cons g gs ih =>
    have := ih (storeGroup m g.1 (KMap.insertAll [] g.2))
    have h2 : ∀ t a, (storeGroup m t a).majVsn = m.majVsn ∧ (storeGroup m t a).minVsn = m.minVsn ∧
        (storeGroup m t a).opOrStatus = m.opOrStatus := by
      intro t a; unfold storeGroup; split
      · exact ⟨rfl, rfl, rfl⟩
      · split
        · exact ⟨rfl, rfl, rfl⟩
        · split <;> exact ⟨rfl, rfl, rfl⟩
    have h2 := h2 g.1 (KMap.insertAll [] g.2)
    exact ⟨this.1.trans h2.1, this.2.1.trans h2.2.1, this.2.2.trans h2.2.2⟩

/-- The groups with a tag. -/
def Spec.ofTag (tag : UInt8) (gs : List (UInt8 × List (Bytes × Attr))) : List (List (Bytes × Attr)) :=
  (gs.filter (fun g => decide (g.1 = tag))).map Prod.snd

theorem ofTag_cons (tag : UInt8) (g : UInt8 × List (Bytes × Attr)) (gs : List (UInt8 × List (Bytes × Attr))) :
    ofTag tag (g :: gs) = if g.1 = tag then g.2 :: ofTag tag gs else ofTag tag gs := by
  unfold ofTag
  by_cases h : g.1 = tag
  · rw [List.filter_cons_of_pos (by simpa using h), if_pos h]; rfl
  · rw [List.filter_cons_of_neg (by simpa using h), if_neg h]

theorem storeGroup_job (m : Msg) (t : UInt8) (a : Attrs) :
    (storeGroup m t a).jobAttrs = if t = 2 then m.jobAttrs ++ [a] else m.jobAttrs := by
  unfold storeGroup
  by_cases h1 : t = tOpAttrs
  · rw [if_pos h1, if_neg (by rw [h1]; decide)]
  · rw [if_neg h1]
    by_cases h2 : t = tJobAttrs
    · rw [if_pos h2, if_pos h2]
    · rw [if_neg h2, if_neg h2]; split <;> rfl

theorem storeGroup_op (m : Msg) (t : UInt8) (a : Attrs) :
    (storeGroup m t a).opAttrs = if t = 1 then a else m.opAttrs := by
  unfold storeGroup
  by_cases h1 : t = tOpAttrs
  · rw [if_pos h1, if_pos h1]
  · rw [if_neg h1, if_neg h1]
    split
    · rfl
    · split <;> rfl

theorem storeGroup_printer (m : Msg) (t : UInt8) (a : Attrs) :
    (storeGroup m t a).printerAttrs = if t = 4 then a else m.printerAttrs := by
  unfold storeGroup
  by_cases h1 : t = tOpAttrs
  · rw [if_pos h1, if_neg (by rw [h1]; decide)]
  · rw [if_neg h1]
    by_cases h2 : t = tJobAttrs
    · rw [if_pos h2, if_neg (by rw [h2]; decide)]
    · rw [if_neg h2]; split <;> rfl

theorem storeGroups_job (m : Msg) (gs : List (UInt8 × List (Bytes × Attr))) :
    (storeGroups m gs).jobAttrs = m.jobAttrs ++ (ofTag 2 gs).map (KMap.insertAll []) := by
  induction gs generalizing m with
  | nil => simp [storeGroups, ofTag]
  | cons g gs ih =>
    have : storeGroups m (g :: gs) = storeGroups (storeGroup m g.1 (KMap.insertAll [] g.2)) gs := rfl
    rw [this, ih, ofTag_cons, storeGroup_job]
    split <;> simp

/-- The last group with a tag. -/
def Spec.lastOfTag (tag : UInt8) (gs : List (UInt8 × List (Bytes × Attr))) : List (Bytes × Attr) :=
  ((ofTag tag gs).getLast?).getD []

theorem storeGroups_op' (m : Msg) (gs : List (UInt8 × List (Bytes × Attr))) :
    (storeGroups m gs).opAttrs = ((ofTag 1 gs).getLast?.map (KMap.insertAll [])).getD m.opAttrs := by
  induction gs generalizing m with
  | nil => simp [storeGroups, ofTag]
  | cons g gs ih =>
    have : storeGroups m (g :: gs) = storeGroups (storeGroup m g.1 (KMap.insertAll [] g.2)) gs := rfl
    rw [this, ih, ofTag_cons, storeGroup_op]
    split
    · rw [List.getLast?_cons]
      cases (ofTag 1 gs).getLast? <;> rfl
    · rfl

theorem storeGroups_printer' (m : Msg) (gs : List (UInt8 × List (Bytes × Attr))) :
    (storeGroups m gs).printerAttrs = ((ofTag 4 gs).getLast?.map (KMap.insertAll [])).getD m.printerAttrs := by
  induction gs generalizing m with
  | nil => simp [storeGroups, ofTag]
  | cons g gs ih =>
    have : storeGroups m (g :: gs) = storeGroups (storeGroup m g.1 (KMap.insertAll [] g.2)) gs := rfl
    rw [this, ih, ofTag_cons, storeGroup_printer]
    split
    · rw [List.getLast?_cons]
      cases (ofTag 4 gs).getLast? <;> rfl
    · rfl

theorem storeGroups_op {m : Msg} (h : m.opAttrs = []) (gs : List (UInt8 × List (Bytes × Attr))) :
    (storeGroups m gs).opAttrs = KMap.insertAll [] (lastOfTag 1 gs) := by
  rw [storeGroups_op', lastOfTag, h]
  cases (ofTag 1 gs).getLast? <;> rfl

theorem storeGroups_printer {m : Msg} (h : m.printerAttrs = []) (gs : List (UInt8 × List (Bytes × Attr))) :
    (storeGroups m gs).printerAttrs = KMap.insertAll [] (lastOfTag 4 gs) := by
  rw [storeGroups_printer', lastOfTag, h]
  cases (ofTag 4 gs).getLast? <;> rfl

/-! ## Encoding messages -/

/-- The groups of a message in the order in which they are written. -/
def msgGroups (m : Msg) : List (UInt8 × List (Bytes × Attr)) :=
  (1, (splitInitial initialAttrs m.opAttrs).1 ++ (splitInitial initialAttrs m.opAttrs).2) ::
    ((m.jobAttrs.filter (fun g => decide (g ≠ []))).map (fun g => ((2 : UInt8), g)) ++
     (if m.printerAttrs = [] then [] else [((4 : UInt8), m.printerAttrs)]))

/-- A message whose groups are all well-typed. -/
def Spec.MsgOk (m : Msg) : Prop := GroupOk m.opAttrs ∧ (∀ g ∈ m.jobAttrs, GroupOk g) ∧ GroupOk m.printerAttrs

theorem Spec.GroupOk.typed {g : Attrs} (h : GroupOk g) : ∀ name attr, (name, attr) ∈ g → WellTyped true attr.1 attr.2 :=
  fun n a hm => (h.2 n a hm).2.2

theorem encodeJobs_spec {l : List Attrs} (h : ∀ g ∈ l, GroupOk g) :
    encodeJobs l = .ok (groupsBytes ((l.filter (fun g => decide (g ≠ []))).map (fun g => ((2 : UInt8), g)))) := by
  induction l with
  | nil => rfl
  | cons g l ih =>
    have ih := ih (fun g' hm => h g' (List.mem_cons_of_mem _ hm))
    rw [encodeJobs]
    split
    · rename_i hg
      rw [ih, List.filter_cons_of_neg (by simp [hg])]
    · rename_i hg
      rw [encodeAttributes_spec (h g (List.mem_cons_self ..)).typed, ih, List.filter_cons_of_pos (by simpa using hg)]
      simp [groupsBytes]

theorem mem_splitInitial {keys : List Bytes} {g : Attrs} (hs : KMap.Sorted g) {e : Bytes × Attr} :
    e ∈ (splitInitial keys g).1 ++ (splitInitial keys g).2 ↔ e ∈ g := (splitInitial_perm keys hs).mem_iff

theorem encodeMsg_spec {m : Msg} (h : MsgOk m) (reqId : Nat) :
    encodeMsg reqId m =
      .ok (headerBytes m.majVsn m.minVsn m.opOrStatus reqId ++ (groupsBytes (msgGroups m) ++ [3])) := by
  have h2 : ∀ name attr, (name, attr) ∈ (splitInitial initialAttrs m.opAttrs).2 → WellTyped true attr.1 attr.2 :=
    fun n a hm => h.1.typed n a ((mem_splitInitial h.1.1).mp (List.mem_append_right _ hm))
  have h3 : encodePrinter m.printerAttrs =
      .ok (groupsBytes (if m.printerAttrs = [] then [] else [((4 : UInt8), m.printerAttrs)])) := by
    rw [encodePrinter]
    split
    · rfl
    · rw [encodeAttributes_spec h.2.2.typed]; simp [groupsBytes]
  rw [encodeMsg, encodeInitial_spec _ h.1.typed, Outcome.bind_ok]
  simp only
  rw [encodeAttributes_spec h2, encodeJobs_spec h.2.1, h3]
  simp [headerBytes, msgGroups, groupsBytes, groupBytes]

theorem recvOk_msgGroups {m : Msg} (h : MsgOk m) : ∀ g ∈ msgGroups m, RecvOk g := by
  intro g hg
  rw [msgGroups] at hg
  rcases List.mem_cons.mp hg with rfl | hg
  · exact ⟨.inl rfl, fun n a hm => h.1.2 n a ((mem_splitInitial h.1.1).mp hm)⟩
  · rcases List.mem_append.mp hg with hg | hg
    · obtain ⟨g', hg', rfl⟩ := List.mem_map.mp hg
      exact ⟨.inr (.inl rfl), (h.2.1 g' (List.mem_filter.mp hg').1).2⟩
    · split at hg
      · cases hg
      · obtain rfl := List.mem_singleton.mp hg
        exact ⟨.inr (.inr (.inl rfl)), h.2.2.2⟩

theorem get?_perm {l g : Attrs} (hp : l.Perm g) (hs : KMap.Sorted g) (k : Bytes) : KMap.get? l k = KMap.get? g k := by
  cases hl : KMap.get? l k with
  | some v => exact (KMap.get?_of_mem hs (hp.mem_iff.mp (KMap.mem_of_get? hl))).symm
  | none =>
    cases hg : KMap.get? g k with
    | none => rfl
    | some v =>
      have := get?_isSome_of_mem (hp.mem_iff.mpr (KMap.mem_of_get? hg))
      simp only [hl] at this
      cases this

theorem insertAll_perm {l g : Attrs} (hp : l.Perm g) (hs : KMap.Sorted g) : KMap.insertAll [] l = g := by
  apply KMap.ext (KMap.sorted_insertAll KMap.sorted_nil l) hs
  intro k
  rw [KMap.get?_insertAll KMap.sorted_nil, get?_perm hp hs]
  simp [KMap.get?]

theorem storeGroups_msgGroups {m : Msg} (h : MsgOk m) :
    storeGroups { majVsn := m.majVsn, minVsn := m.minVsn, opOrStatus := m.opOrStatus } (msgGroups m) =
      { m with jobAttrs := m.jobAttrs.filter (fun g => decide (g ≠ [])) } := by
  have hp := splitInitial_perm initialAttrs h.1.1
  have hjobs : ∀ (l : List Attrs) (m0 : Msg), (∀ g ∈ l, GroupOk g) →
      storeGroups m0 (l.map (fun g => ((2 : UInt8), g))) = { m0 with jobAttrs := m0.jobAttrs ++ l } := by
    intro l
    induction l with
    | nil => intro m0 _; simp [storeGroups]
    | cons g l ih =>
      intro m0 hl
      have hg := hl g (List.mem_cons_self ..)
      have : storeGroups m0 ((g :: l).map (fun g => ((2 : UInt8), g))) =
        storeGroups (storeGroup m0 2 (KMap.insertAll [] g)) (l.map (fun g => ((2 : UInt8), g))) := rfl
      rw [this, ih _ (fun g' hm => hl g' (List.mem_cons_of_mem _ hm)), KMap.insertAll_nil hg.1]
      simp [storeGroup, show ¬ ((2 : UInt8) = tOpAttrs) by decide]
  rw [msgGroups]
  have h1 : ∀ m0 g gs, storeGroups m0 (g :: gs) = storeGroups (storeGroup m0 g.1 (KMap.insertAll [] g.2)) gs := fun _ _ _ => rfl
  rw [h1]
  have h2 : ∀ m0 a b, storeGroups m0 (a ++ b) = storeGroups (storeGroups m0 a) b := by
    intro m0 a b; simp [storeGroups]
  rw [h2, hjobs _ _ (fun g hg => h.2.1 g (List.mem_filter.mp hg).1), insertAll_perm hp h.1.1]
  by_cases hpr : m.printerAttrs = []
  · rw [if_pos hpr]
    simp [storeGroups, storeGroup, hpr]
  · rw [if_neg hpr, h1, KMap.insertAll_nil h.2.2.1]
    simp [storeGroups, storeGroup, show ¬ ((4 : UInt8) = tOpAttrs) by decide, show ¬ ((4 : UInt8) = tJobAttrs) by decide]

end Verif.Ipp
