import Verif.Ipp.Json
import Verif.Ipp.Spec
import Verif.Raster.HeaderLemmas

/-!
# Property C26: attributes as JSON
-/

namespace Verif.Ipp

open Spec Raster

mutual
/-- No date in the value. -/
def Spec.noDate : Value → Bool
  | .str _ => true
  | .int _ => true
  | .bool _ => true
  | .range _ _ => true
  | .res _ _ _ => true
  | .date _ => false
  | .set l => noDates l
  | .coll m => noDateMembers m
/-- No date in the values. -/
def Spec.noDates : List Value → Bool
  | [] => true
  | v :: r => noDate v && noDates r
/-- No date in the members. -/
def Spec.noDateMembers : List (Bytes × (UInt8 × Value)) → Bool
  | [] => true
  | (_, (_, v)) :: r => noDate v && noDateMembers r
end

mutual
/-- The value with its dates as texts. -/
def Spec.datesAsTexts : Value → Value
  | .date d => .str d.toStr
  | .set l => .set (eachAsTexts l)
  | .coll m => .coll (membersAsTexts m)
  | v => v
/-- The values with their dates as texts. -/
def Spec.eachAsTexts : List Value → List Value
  | [] => []
  | v :: r => datesAsTexts v :: eachAsTexts r
/-- The members, or attributes, with their dates as texts. -/
def Spec.membersAsTexts : List (Bytes × (UInt8 × Value)) → List (Bytes × (UInt8 × Value))
  | [] => []
  | (k, (tag, v)) :: r => (k, (tag, datesAsTexts v)) :: membersAsTexts r
end

mutual
theorem datesAsTexts_same : (v : Value) → noDate v = true → datesAsTexts v = v
  | .str _, _ => by rw [datesAsTexts] <;> simp
  | .int _, _ => by rw [datesAsTexts] <;> simp
  | .bool _, _ => by rw [datesAsTexts] <;> simp
  | .range _ _, _ => by rw [datesAsTexts] <;> simp
  | .res _ _ _, _ => by rw [datesAsTexts] <;> simp
  | .date _, h => by simp [noDate] at h
  | .set l, h => by rw [noDate] at h; rw [datesAsTexts, eachAsTexts_same l h]
  | .coll m, h => by rw [noDate] at h; rw [datesAsTexts, membersAsTexts_same m h]

theorem eachAsTexts_same : (l : List Value) → noDates l = true → eachAsTexts l = l
  | [], _ => rfl
  | v :: r, h => by
    rw [noDates, Bool.and_eq_true] at h
    rw [eachAsTexts, datesAsTexts_same v h.1, eachAsTexts_same r h.2]

theorem membersAsTexts_same : (m : List (Bytes × (UInt8 × Value))) → noDateMembers m = true → membersAsTexts m = m
  | [], _ => rfl
  | (k, (tag, v)) :: r, h => by
    rw [noDateMembers, Bool.and_eq_true] at h
    rw [membersAsTexts, datesAsTexts_same v h.1, membersAsTexts_same r h.2]
end

theorem membersAsTexts_keys (m : List (Bytes × (UInt8 × Value))) : (membersAsTexts m).map Prod.fst = m.map Prod.fst := by
  induction m with
  | nil => rfl
  | cons e m ih => obtain ⟨k, tag, v⟩ := e; rw [membersAsTexts, List.map_cons, List.map_cons, ih]

/-- The full claim of C26. -/
def C26 : Prop := ∀ (tag : UInt8) (v : Value), WellTyped true tag v → attrFromJson (attrToJson (tag, v)) = .ok (tag, v)

theorem i32_roundtrip32 (x : UInt32) : UInt32.ofNat (i32ToNat (natToI32 x.toNat)) = x := by
  have hx := x.toNat_lt
  have : i32ToNat (natToI32 x.toNat) = x.toNat := by
    unfold i32ToNat natToI32; split <;> omega
  rw [this]; simp

theorem i32_roundtrip8 (x : UInt8) : UInt8.ofNat (i32ToNat x.toNat) = x := by
  have hx := x.toNat_lt
  have : i32ToNat (x.toNat : Int) = x.toNat := by
    unfold i32ToNat; omega
  rw [this]; simp

/-- The list of entries as it is made into JSON. -/
def memberList : List (Bytes × (UInt8 × Value)) → KMap Json
  | [] => []
  | (k, (tag, v)) :: r => (k, .obj [(ascii "tag", .num tag.toNat), (ascii "value", valueToJson v)]) :: memberList r

theorem assign_last {α : Type} {m : KMap α} {k : Bytes} {v : α} (h : ∀ e ∈ m, bytesLt e.1 k = true) :
    KMap.assign m k v = m ++ [(k, v)] := by
  induction m with
  | nil => rfl
  | cons e m ih =>
    obtain ⟨k', v'⟩ := e
    have h1 := h (k', v') (List.mem_cons_self ..)
    have h2 : bytesLt k k' = false := by
      cases hk : bytesLt k k' with
      | false => rfl
      | true => have := bytesLt_trans h1 hk; rw [bytesLt_irrefl] at this; cases this
    have h3 : k ≠ k' := fun h => bytesLt_ne h1 h.symm
    rw [KMap.assign]
    simp only [h2, h3, if_false, Bool.false_eq_true]
    rw [ih (fun e he => h e (List.mem_cons_of_mem _ he))]
    rfl

theorem memberList_keys {m : List (Bytes × (UInt8 × Value))} {e : Bytes × Json} (h : e ∈ memberList m) : ∃ a, (e.1, a) ∈ m := by
  induction m with
  | nil => cases h
  | cons x m ih =>
    obtain ⟨k, tag, v⟩ := x
    rcases List.mem_cons.mp h with rfl | h
    · exact ⟨_, List.mem_cons_self ..⟩
    · obtain ⟨a, ha⟩ := ih h
      exact ⟨a, List.mem_cons_of_mem _ ha⟩

theorem membersToJson_sorted {m : Attrs} (hs : KMap.Sorted m) (acc : KMap Json)
    (h : ∀ e ∈ acc, ∀ x ∈ m, bytesLt e.1 x.1 = true) : membersToJson m acc = acc ++ memberList m := by
  induction m generalizing acc with
  | nil => simp [membersToJson, memberList]
  | cons x m ih =>
    obtain ⟨k, tag, v⟩ := x
    have hs' := List.pairwise_cons.mp hs
    rw [membersToJson, assign_last (fun e he => h e he _ (List.mem_cons_self ..)), ih hs'.2, memberList]
    · simp
    · intro e he x hx
      rcases List.mem_append.mp he with he | he
      · exact h e he x (List.mem_cons_of_mem _ hx)
      · obtain rfl := List.mem_singleton.mp he
        exact hs'.1 x hx

theorem valueAt_second (tag : UInt8) (t : Json) (j : Json) :
    valueAt tag [(ascii "tag", t), (ascii "value", j)] = valueFromJson tag j := by
  rw [valueAt, if_neg (by decide +kernel), valueAt, if_pos rfl]

theorem attrFromJson_pair (tag : UInt8) (j : Json) :
    attrFromJson (.obj [(ascii "tag", .num tag.toNat), (ascii "value", j)]) =
      (do let v ← valueFromJson tag j; return (tag, v)) := by
  rw [attrFromJson]
  have : intAt [(ascii "tag", .num tag.toNat), (ascii "value", j)] (ascii "tag") = .ok (tag.toNat : Int) := by
    simp [intAt, KMap.get?, Json.intValue]
  rw [this]
  simp only [Outcome.bind_ok, i32_roundtrip8, valueAt_second]

mutual
theorem valueFromJson_toJson : (v : Value) → ∀ {top : Bool} {tag : UInt8}, WellTyped top tag v →
    valueFromJson tag (valueToJson v) = .ok (datesAsTexts v)
  | .str s, _, _, _ => by rw [valueToJson, valueFromJson, datesAsTexts] <;> simp
  | .int s, _, _, _ => by rw [valueToJson, valueFromJson, datesAsTexts] <;> simp
  | .bool s, _, _, _ => by rw [valueToJson, valueFromJson, datesAsTexts] <;> simp
  | .date s, _, _, _ => by rw [valueToJson, valueFromJson, datesAsTexts]
  | .range l h, _, tag, hw => by
    simp only [WellTyped, PlainOk] at hw
    rw [valueToJson, valueFromJson, if_pos hw.1]
    have h1 : intAt (rangeToJson l h) (ascii "low") = .ok l := by
      rw [intAt, rangeToJson, KMap.get?, if_neg (by decide +kernel), KMap.get?, if_pos rfl]; rfl
    have h2 : intAt (rangeToJson l h) (ascii "high") = .ok h := by
      rw [intAt, rangeToJson, KMap.get?, if_pos rfl]; rfl
    rw [rangeFromJson, h1, h2, datesAsTexts] <;> simp
  | .res x y u, _, tag, hw => by
    simp only [WellTyped, PlainOk] at hw
    subst hw
    rw [valueToJson, valueFromJson, if_neg (by decide), if_pos rfl]
    have h1 : intAt (resToJson x y u) (ascii "x") = .ok (natToI32 x.toNat) := by
      rw [intAt, resToJson, KMap.get?, if_neg (by decide +kernel), KMap.get?, if_pos rfl]; rfl
    have h2 : intAt (resToJson x y u) (ascii "y") = .ok (natToI32 y.toNat) := by
      rw [intAt, resToJson, KMap.get?, if_neg (by decide +kernel), KMap.get?, if_neg (by decide +kernel), KMap.get?, if_pos rfl]
      rfl
    have h3 : intAt (resToJson x y u) (ascii "units") = .ok (u.toNat : Int) := by
      rw [intAt, resToJson, KMap.get?, if_pos rfl]; rfl
    rw [resFromJson, h1, h2, h3, datesAsTexts] <;> simp [i32_roundtrip32, i32_roundtrip8]
  | .set l, _, tag, hw => by
    simp only [WellTyped] at hw
    rw [valueToJson, valueFromJson, valuesFromJson_toJson l hw.2.2, datesAsTexts]; rfl
  | .coll m, _, tag, hw => by
    simp only [WellTyped] at hw
    obtain ⟨rfl, hs, hm⟩ := hw
    rw [valueToJson, membersToJson_sorted hs [] (by simp), valueFromJson, if_neg (by decide), if_neg (by decide),
      if_neg (by decide), if_pos rfl, List.nil_append, membersFromJson_toJson m hm hs [] (by simp), datesAsTexts]
    rfl

theorem valuesFromJson_toJson : (l : List Value) → ∀ {tag : UInt8}, ListOk tag l →
    valuesFromJson tag (valuesToJson l) = .ok (eachAsTexts l)
  | [], _, _ => by rw [valuesToJson, valuesFromJson, eachAsTexts]
  | v :: r, tag, hw => by
    simp only [ListOk] at hw
    rw [valuesToJson, valuesFromJson, valueFromJson_toJson v hw.1, valuesFromJson_toJson r hw.2, eachAsTexts]; rfl

theorem membersFromJson_toJson : (m : List (Bytes × (UInt8 × Value))) → MembersOk m → KMap.Sorted m →
    ∀ acc : Attrs, (∀ e ∈ acc, ∀ x ∈ m, bytesLt e.1 x.1 = true) → membersFromJson (memberList m) acc = .ok (acc ++ membersAsTexts m)
  | [], _, _, acc, _ => by simp [memberList, membersFromJson, membersAsTexts]
  | (k, (tag, v)) :: r, hw, hs, acc, ha => by
    simp only [MembersOk] at hw
    have hs' := List.pairwise_cons.mp hs
    rw [memberList, membersFromJson, attrFromJson_pair, valueFromJson_toJson v hw.2.1]
    simp only [Outcome.bind_ok, Outcome.pure_eq]
    rw [assign_last (fun e he => ha e he _ (List.mem_cons_self ..)), membersFromJson_toJson r hw.2.2 hs'.2]
    · simp [membersAsTexts]
    · intro e he x hx
      rcases List.mem_append.mp he with he | he
      · exact ha e he x (List.mem_cons_of_mem _ hx)
      · obtain rfl := List.mem_singleton.mp he
        exact hs'.1 x hx
end

/-- C26 in all cases: an attribute comes back as it was, except that its dates, at any nesting, have become texts. -/
theorem C26_json_exact (tag : UInt8) (v : Value) (h : WellTyped true tag v) : attrFromJson (attrToJson (tag, v)) = .ok (tag, datesAsTexts v) := by
  rw [attrToJson, attrFromJson_pair, valueFromJson_toJson v h]; rfl

/-- C26 for all attributes that contain no date, at any nesting. What is missing: dates (`C26_json_dates_false`). -/
theorem C26_json_roundtrip_partial (tag : UInt8) (v : Value) (h : WellTyped true tag v) (hd : noDate v = true) :
    attrFromJson (attrToJson (tag, v)) = .ok (tag, v) := by
  rw [C26_json_exact tag v h, datesAsTexts_same v hd]

example : ∃ v, WellTyped true 0x34 v ∧ noDate v = true ∧ v = .set
    [.coll [(ascii "a", (0x32, .res 600 4294967295 3)), (ascii "b", (0x33, .set [.range 1 2, .range (-3) 4]))], .coll []] :=
  ⟨_, by simp only [WellTyped, PlainOk, ListOk, MembersOk, InInt32]; unfold KMap.Sorted; decide, by decide, rfl⟩

theorem membersOk_group {g : Attrs} (h : GroupOk g) : MembersOk g := by
  obtain ⟨hs, h⟩ := h
  induction g with
  | nil => exact trivial
  | cons e g ih =>
    obtain ⟨k, tag, v⟩ := e
    have he := h k (tag, v) (List.mem_cons_self ..)
    exact ⟨he.2.1, he.2.2, ih hs.tail (fun n a hm => h n a (List.mem_cons_of_mem _ hm))⟩

/-- C26 in all cases, for groups of attributes -/
theorem C26_json_group_exact (g : Attrs) (h : GroupOk g) : attrsFromJson (attrsToJson g) = .ok (membersAsTexts g) := by
  rw [attrsFromJson, attrsToJson, Json.objectItems, membersToJson_sorted h.1 [] (by simp), List.nil_append,
    membersFromJson_toJson g (membersOk_group h) h.1 [] (by simp), List.nil_append]

/-- The same for groups of attributes. -/
theorem C26_json_group_partial (g : Attrs) (h : GroupOk g) (hd : ∀ name attr, (name, attr) ∈ g → noDate attr.2 = true) :
    attrsFromJson (attrsToJson g) = .ok g := by
  rw [C26_json_group_exact g h, membersAsTexts_same]
  clear h
  induction g with
  | nil => rfl
  | cons e g ih =>
    obtain ⟨k, tag, v⟩ := e
    rw [noDateMembers, hd k (tag, v) (List.mem_cons_self ..), ih (fun n a hm => hd n a (List.mem_cons_of_mem _ hm))]
    rfl

/-- a date within a collection -/
example : datesAsTexts (.coll [(ascii "at", (0x31, .date { year := 2026, month := 2, day := 3, hour := 4, minutes := 5, seconds := 6, deciSeconds := 7, plusMinus := 43, utcHOffset := 1, utcMOffset := 0 })), (ascii "n", (0x21, .int 5))]) =
    .coll [(ascii "at", (0x31, .str (ascii "2026-02-03T04:05:06.700 GMT+0100"))), (ascii "n", (0x21, .int 5))] := by
  have : DateTime.toStr { year := 2026, month := 2, day := 3, hour := 4, minutes := 5, seconds := 6, deciSeconds := 7, plusMinus := 43, utcHOffset := 1, utcMOffset := 0 } =
      ascii "2026-02-03T04:05:06.700 GMT+0100" := by decide +kernel
  simp [datesAsTexts, membersAsTexts, this]

example : ∃ g, GroupOk g ∧ (∀ name attr, (name, attr) ∈ g → noDate attr.2 = true) ∧ g = [(ascii "copies", ((0x21 : UInt8), Value.int 3))] := by
  refine ⟨_, ⟨by unfold KMap.Sorted; decide, ?_⟩, ?_, rfl⟩
  · intro n a h
    simp only [List.mem_cons, List.not_mem_nil, or_false, Prod.mk.injEq] at h
    obtain ⟨rfl, rfl⟩ := h
    exact ⟨by decide, by decide, by simp only [WellTyped, PlainOk, InInt32]; decide⟩
  · intro n a h
    simp only [List.mem_cons, List.not_mem_nil, or_false, Prod.mk.injEq] at h
    obtain ⟨rfl, rfl⟩ := h
    rfl

/-- C26 is false for every date: what comes back is a string. -/
theorem C26_json_dates_false (d : DateTime) :
    WellTyped true 0x31 (.date d) ∧ attrFromJson (attrToJson (0x31, .date d)) = .ok (0x31, .str d.toStr) := by
  refine ⟨by simp only [WellTyped, PlainOk], ?_⟩
  rw [attrToJson, attrFromJson_pair, valueToJson, valueFromJson]; rfl

theorem C26_json_roundtrip_false : ¬ C26 := by
  intro h
  have h1 := C26_json_dates_false {}
  have h2 := h 0x31 _ h1.1
  rw [h1.2] at h2
  simp at h2

end Verif.Ipp
