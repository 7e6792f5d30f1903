import Verif.Ipp.Msg
import Verif.Ipp.Spec

/-!
# The encoder writes the wire format of the specification
-/

namespace Verif.Ipp

open Spec Raster

theorem be32_i32ToNat {i : Int} (h : InInt32 i) : be32 (i32ToNat i) = int4 i := by
  unfold i32ToNat int4
  congr 1
  obtain ⟨h1, h2⟩ := h
  split <;> omega

theorem kind_of_stringTag {tag : UInt8} (h : tag ∈ stringTags) : kind tag = .str := by
  simp only [stringTags, List.mem_cons, List.not_mem_nil, or_false] at h
  rcases h with rfl | rfl | rfl | rfl | rfl | rfl | rfl | rfl | rfl | rfl | rfl <;> decide

theorem encodeScalar_plain {tag : UInt8} {v : Value} (h : PlainOk tag v) : encodeScalar tag v = .ok (plainBytes v) := by
  cases v with
  | int i =>
    obtain ⟨ht, hi⟩ := h
    have : kind tag = .int := by rcases ht with rfl | rfl <;> decide
    simp [encodeScalar, this, plainBytes, be32_i32ToNat hi]
  | bool b =>
    obtain rfl : tag = 0x22 := h
    have : kind 0x22 = .bool := by decide
    cases b <;> simp [encodeScalar, this, plainBytes, be8]
  | date d =>
    obtain rfl : tag = 0x31 := h
    have : kind 0x31 = .date := by decide
    simp [encodeScalar, this, plainBytes]
  | res x y u =>
    obtain rfl : tag = 0x32 := h
    have : kind 0x32 = .res := by decide
    simp [encodeScalar, this, plainBytes]
  | range l r =>
    obtain ⟨rfl, hl, hr⟩ := h
    have : kind 0x33 = .range := by decide
    simp [encodeScalar, this, plainBytes, be32_i32ToNat hl, be32_i32ToNat hr]
  | str s =>
    have := kind_of_stringTag h.1
    simp [encodeScalar, this, plainBytes]
  | set l => exact h.elim
  | coll m => exact h.elim

/-- The bytes after tag and name of the first token. -/
def valueBytes : List Attr → Bytes
  | [] => []
  | t :: ts => plainBytes t.2 ++ unnamedBytes ts

theorem unnamedBytes_cons (t : Attr) (ts : List Attr) :
    unnamedBytes (t :: ts) = [t.1] ++ be16 0 ++ valueBytes (t :: ts) := by
  simp [unnamedBytes, tokenBytes, valueBytes]

theorem unnamedBytes_append (a b : List Attr) : unnamedBytes (a ++ b) = unnamedBytes a ++ unnamedBytes b := by
  simp [unnamedBytes]

theorem valueBytes_append {a : List Attr} (h : a ≠ []) (b : List Attr) : valueBytes (a ++ b) = valueBytes a ++ unnamedBytes b := by
  cases a with
  | nil => exact absurd rfl h
  | cons x a => simp [valueBytes, unnamedBytes_append]

/-- The first token of a well-typed value has the value's tag. -/
theorem tokens_head : (v : Value) → ∀ {top : Bool} {tag : UInt8}, WellTyped top tag v → ∃ w ts, tokens tag v = (tag, w) :: ts
  | .set [], _, _, h => by simp [WellTyped] at h
  | .set (v :: r), _, tag, h => by
    simp only [WellTyped, ListOk] at h
    obtain ⟨w, ts, hw⟩ := tokens_head v h.2.2.1
    exact ⟨w, ts ++ listTokens tag r, by simp [tokens, listTokens, hw]⟩
  | .coll m, _, _, h => by
    simp only [WellTyped] at h
    exact ⟨_, _, by rw [tokens, h.1]⟩
  | .int i, _, _, _ => ⟨_, _, by rw [tokens]⟩
  | .bool i, _, _, _ => ⟨_, _, by rw [tokens]⟩
  | .date i, _, _, _ => ⟨_, _, by rw [tokens]⟩
  | .res _ _ _, _, _, _ => ⟨_, _, by rw [tokens]⟩
  | .range _ _, _, _, _ => ⟨_, _, by rw [tokens]⟩
  | .str _, _, _, _ => ⟨_, _, by rw [tokens]⟩

theorem tag_tokens {v : Value} {top : Bool} {tag : UInt8} (h : WellTyped top tag v) :
    unnamedBytes (tokens tag v) = [tag] ++ be16 0 ++ valueBytes (tokens tag v) := by
  obtain ⟨w, ts, hw⟩ := tokens_head v h
  rw [hw, unnamedBytes_cons]

theorem tokens_ne_nil {v : Value} {top : Bool} {tag : UInt8} (h : WellTyped top tag v) : tokens tag v ≠ [] := by
  obtain ⟨w, ts, hw⟩ := tokens_head v h
  rw [hw]; simp

mutual
theorem encodeVal_spec : (v : Value) → ∀ {top : Bool} {tag : UInt8}, WellTyped top tag v →
    encodeVal top tag v = .ok (valueBytes (tokens tag v))
  | .set [], _, _, h => by simp [WellTyped] at h
  | .set (v :: r), top, tag, h => by
    simp only [WellTyped, ListOk] at h
    obtain ⟨rfl, -, hv, hr⟩ := h
    rw [encodeVal, if_pos rfl, encodeSet, encodeVal_spec v hv, encodeRest_spec r hr, tokens, listTokens]
    simp [valueBytes_append (tokens_ne_nil hv)]
  | .coll m, top, tag, h => by
    simp only [WellTyped] at h
    obtain ⟨rfl, -, hm⟩ := h
    rw [encodeVal, if_pos (by decide), encodeMembers_spec m hm, tokens]
    simp [valueBytes, plainBytes, unnamedBytes, tokenBytes]
  | .int i, _, _, h => by simp only [WellTyped] at h; rw [encodeVal, encodeScalar_plain h, tokens]; simp [valueBytes, unnamedBytes]
  | .bool i, _, _, h => by simp only [WellTyped] at h; rw [encodeVal, encodeScalar_plain h, tokens]; simp [valueBytes, unnamedBytes]
  | .date i, _, _, h => by simp only [WellTyped] at h; rw [encodeVal, encodeScalar_plain h, tokens]; simp [valueBytes, unnamedBytes]
  | .res _ _ _, _, _, h => by simp only [WellTyped] at h; rw [encodeVal, encodeScalar_plain h, tokens]; simp [valueBytes, unnamedBytes]
  | .range _ _, _, _, h => by simp only [WellTyped] at h; rw [encodeVal, encodeScalar_plain h, tokens]; simp [valueBytes, unnamedBytes]
  | .str _, _, _, h => by simp only [WellTyped] at h; rw [encodeVal, encodeScalar_plain h, tokens]; simp [valueBytes, unnamedBytes]

theorem encodeRest_spec : (l : List Value) → ∀ {tag : UInt8}, ListOk tag l →
    encodeRest tag l = .ok (unnamedBytes (listTokens tag l))
  | [], _, _ => by simp [encodeRest, listTokens, unnamedBytes]
  | v :: r, tag, h => by
    simp only [ListOk] at h
    rw [encodeRest, encodeVal_spec v h.1, encodeRest_spec r h.2, listTokens, unnamedBytes_append, tag_tokens h.1]
    simp

theorem encodeMembers_spec : (m : List (Bytes × (UInt8 × Value))) → MembersOk m →
    encodeMembers m = .ok (unnamedBytes (memberTokens m))
  | [], _ => by simp [encodeMembers, memberTokens, unnamedBytes]
  | (name, (tag, v)) :: r, h => by
    simp only [MembersOk] at h
    rw [encodeMembers, encodeVal_spec v h.2.1, encodeMembers_spec r h.2.2, memberTokens, unnamedBytes_cons, valueBytes,
      unnamedBytes_append, tag_tokens h.2.1]
    simp [plainBytes]
end

theorem attrBytes_eq {name : Bytes} {attr : Attr} (h : WellTyped true attr.1 attr.2) :
    attrBytes name attr = [attr.1] ++ be16 name.length ++ name ++ valueBytes (tokens attr.1 attr.2) := by
  obtain ⟨w, ts, hw⟩ := tokens_head attr.2 h
  rw [attrBytes, hw]
  simp [tokenBytes, valueBytes]

theorem encodeAttribute_spec {name : Bytes} {attr : Attr} (h : WellTyped true attr.1 attr.2) :
    encodeAttribute name attr = .ok (attrBytes name attr) := by
  rw [encodeAttribute, encodeVal_spec _ h, attrBytes_eq h]
  simp

theorem encodeAttributes_spec {g : Attrs} (h : ∀ name attr, (name, attr) ∈ g → WellTyped true attr.1 attr.2) :
    encodeAttributes g = .ok (groupBytes g) := by
  induction g with
  | nil => rfl
  | cons e g ih =>
    obtain ⟨name, attr⟩ := e
    rw [encodeAttributes, encodeAttribute_spec (h name attr (List.mem_cons_self ..)),
      ih (fun n a hm => h n a (List.mem_cons_of_mem _ hm))]
    simp [groupBytes]

/-- The attributes that are written first, and the rest. -/
def splitInitial : List Bytes → Attrs → List (Bytes × Attr) × Attrs
  | [], g => ([], g)
  | key :: r, g =>
    match g.get? key with
    | some a => ((key, a) :: (splitInitial r (g.erase key)).1, (splitInitial r (g.erase key)).2)
    | none => splitInitial r g

theorem encodeInitial_spec (keys : List Bytes) {g : Attrs}
    (h : ∀ name attr, (name, attr) ∈ g → WellTyped true attr.1 attr.2) :
    encodeInitial keys g = .ok (groupBytes (splitInitial keys g).1, (splitInitial keys g).2) := by
  induction keys generalizing g with
  | nil => rfl
  | cons key r ih =>
    rw [encodeInitial, splitInitial]
    cases hg : g.get? key with
    | none => exact ih h
    | some a =>
      simp only
      rw [encodeAttribute_spec (h key a (KMap.mem_of_get? hg)), Outcome.bind_ok, ih]
      · simp [groupBytes]
      · intro n a hm
        exact h n a (List.mem_filter.mp hm).1

theorem perm_erase {g : Attrs} (hs : KMap.Sorted g) {key : Bytes} {a : Attr} (hg : g.get? key = some a) :
    ((key, a) :: g.erase key).Perm g := by
  induction g with
  | nil => simp [KMap.get?] at hg
  | cons e g ih =>
    obtain ⟨k, v⟩ := e
    have hs' := List.pairwise_cons.mp hs
    rw [KMap.get?] at hg
    split at hg
    · rename_i hk
      subst hk
      obtain rfl : v = a := by simpa using hg
      have : KMap.erase ((key, v) :: g) key = g := by
        unfold KMap.erase
        rw [List.filter_cons_of_neg (by simp), List.filter_eq_self]
        intro e he
        have := bytesLt_ne (hs'.1 e he)
        simp only [decide_eq_true_eq]
        exact fun h => this h.symm
      rw [this]
    · rename_i hk
      have hk : k ≠ key := fun h => hk h.symm
      have : KMap.erase ((k, v) :: g) key = (k, v) :: KMap.erase g key := by
        unfold KMap.erase
        rw [List.filter_cons_of_pos (by simpa using hk)]
      rw [this]
      exact (List.Perm.swap ..).trans ((ih hs'.2 hg).cons _)

theorem splitInitial_perm (keys : List Bytes) {g : Attrs} (hs : KMap.Sorted g) :
    ((splitInitial keys g).1 ++ (splitInitial keys g).2).Perm g := by
  induction keys generalizing g with
  | nil => exact List.Perm.refl _
  | cons key r ih =>
    rw [splitInitial]
    cases hg : g.get? key with
    | none => exact ih hs
    | some a => exact ((ih (KMap.sorted_erase hs key)).cons _).trans (perm_erase hs hg)

theorem splitInitial_names (keys : List Bytes) (hn : keys.Nodup) (g : Attrs) :
    (splitInitial keys g).1.map Prod.fst = keys.filter (fun k => KMap.has g k) := by
  induction keys generalizing g with
  | nil => rfl
  | cons key r ih =>
    obtain ⟨h1, h2⟩ := List.nodup_cons.mp hn
    rw [splitInitial]
    cases hg : g.get? key with
    | none =>
      rw [List.filter_cons_of_neg (by simp [KMap.has, hg])]
      exact ih h2 g
    | some a =>
      rw [List.filter_cons_of_pos (by simp [KMap.has, hg])]
      simp only [List.map_cons, ih h2]
      congr 1
      apply List.filter_congr
      intro k hk
      have : k ≠ key := fun h => h1 (h ▸ hk)
      simp [KMap.has, KMap.get?_erase, this]

theorem get?_isSome_of_mem {g : Attrs} {e : Bytes × Attr} (h : e ∈ g) : (g.get? e.1).isSome := by
  induction g with
  | nil => cases h
  | cons x g ih =>
    rw [KMap.get?]
    split
    · rfl
    · rename_i hne
      rcases List.mem_cons.mp h with rfl | h
      · exact absurd rfl hne
      · exact ih h

theorem splitInitial_rest (keys : List Bytes) (g : Attrs) :
    (splitInitial keys g).2 = g.filter (fun e => decide (e.1 ∉ keys)) := by
  induction keys generalizing g with
  | nil => simp only [splitInitial]; exact (List.filter_eq_self.mpr (by simp)).symm
  | cons key r ih =>
    rw [splitInitial]
    cases hg : g.get? key with
    | none =>
      simp only [ih]
      apply List.filter_congr
      intro e he
      have : e.1 ≠ key := by
        intro h
        have := get?_isSome_of_mem he
        rw [h, hg] at this
        cases this
      simp [this]
    | some a =>
      simp only [ih, KMap.erase, List.filter_filter]
      apply List.filter_congr
      intro e _
      by_cases h : e.1 = key <;> simp [h]

end Verif.Ipp
