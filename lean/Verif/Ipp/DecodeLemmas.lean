import Verif.Ipp.EncodeLemmas
import Verif.Raster.HeaderLemmas

/-!
# The decoder reads the wire format of the specification
-/

namespace Verif.Ipp

open Spec Raster

theorem matchBytes_be16_none {n : Nat} (h : n % 65536 ≠ 0) (r : Bytes) : matchBytes (be16 0) (be16 n ++ r) = none := by
  cases hm : matchBytes (be16 0) (be16 n ++ r) with
  | none => rfl
  | some x =>
    have h1 := matchBytes_some hm
    have h2 : rd16 (be16 n ++ r) = rd16 (be16 0 ++ x) := by rw [h1]
    simp only [rd16_be16, Outcome.ok.injEq, Prod.mk.injEq] at h2
    omega

theorem expect16_be16 {n : Nat} (h : n < 65536) (r : Bytes) : expect16 n (be16 n ++ r) = .ok r := by
  simp [expect16, Nat.mod_eq_of_lt h]

theorem rdInt_int4 {i : Int} (h : InInt32 i) (r : Bytes) : rdInt (int4 i ++ r) = .ok (i, r) := by
  have h1 : i32ToNat i < 4294967296 := by unfold i32ToNat; omega
  rw [← be32_i32ToNat h]
  simp only [rdInt, rd32_be32, Outcome.bind_ok, Outcome.pure_eq, Nat.mod_eq_of_lt h1]
  have := h
  unfold InInt32 at this
  congr 2
  unfold natToI32 i32ToNat
  split <;> omega

@[simp] theorem rd8_cons (a : UInt8) (r : Bytes) : rd8 (a :: r) = .ok (a.toNat, r) := rfl

theorem rdDate_bytes (d : DateTime) (r : Bytes) :
    rdDate (be16 d.year.toNat ++ [d.month, d.day, d.hour, d.minutes, d.seconds, d.deciSeconds, d.plusMinus,
      d.utcHOffset, d.utcMOffset] ++ r) = .ok (d, r) := by
  have := d.year.toNat_lt
  simp [rdDate, List.append_assoc]

theorem decodeValue_plain {tag : UInt8} {v : Value} (h : PlainOk tag v) (r : Bytes) :
    decodeValue tag (plainBytes v ++ r) = .ok (v, r) := by
  cases v with
  | int i =>
    obtain ⟨ht, hi⟩ := h
    have : kind tag = .int := by rcases ht with rfl | rfl <;> decide
    rw [decodeValue, this, plainBytes, List.append_assoc]
    simp only [matchBytes_be16_none (n := 4) (by decide), expect16_be16 (n := 4) (by decide), Outcome.bind_ok, rdInt_int4 hi,
      Outcome.pure_eq]
  | bool b =>
    obtain rfl : tag = 0x22 := h
    have : kind 0x22 = .bool := by decide
    rw [decodeValue, this, plainBytes, List.append_assoc]
    simp only [matchBytes_be16_none (n := 1) (by decide), expect16_be16 (n := 1) (by decide), Outcome.bind_ok, Outcome.pure_eq,
      List.singleton_append, rd8_cons]
    cases b <;> rfl
  | date d =>
    obtain rfl : tag = 0x31 := h
    have : kind 0x31 = .date := by decide
    rw [decodeValue, this, plainBytes, List.append_assoc]
    simp only [matchBytes_be16_none (n := 11) (by decide), expect16_be16 (n := 11) (by decide), Outcome.bind_ok, Outcome.pure_eq,
      rdDate_bytes]
  | res x y u =>
    obtain rfl : tag = 0x32 := h
    have : kind 0x32 = .res := by decide
    have hx := x.toNat_lt
    have hy := y.toNat_lt
    rw [decodeValue, this, plainBytes]
    simp only [List.append_assoc, matchBytes_be16_none (n := 9) (by decide), expect16_be16 (n := 9) (by decide), Outcome.bind_ok,
      Outcome.pure_eq, rd32_be32, List.singleton_append, rd8_cons]
    rw [Nat.mod_eq_of_lt (by omega), Nat.mod_eq_of_lt (by omega)]
    simp
  | range l h' =>
    obtain ⟨rfl, hl, hr⟩ := h
    have : kind 0x33 = .range := by decide
    rw [decodeValue, this, plainBytes]
    simp only [List.append_assoc, matchBytes_be16_none (n := 8) (by decide), expect16_be16 (n := 8) (by decide), Outcome.bind_ok,
      Outcome.pure_eq, rdInt_int4 hl, rdInt_int4 hr]
  | str s =>
    have := kind_of_stringTag h.1
    rw [decodeValue, this, plainBytes]
    simp only [List.append_assoc, rd16_be16, Outcome.bind_ok, Nat.mod_eq_of_lt h.2, rdBytes_append s r s.length rfl,
      Outcome.pure_eq]
  | set l => exact h.elim
  | coll m => exact h.elim

/-- A token that can be on the wire. -/
def TokenOk (t : Attr) : Prop :=
  PlainOk t.1 t.2 ∨ ((t.1 = 0x34 ∨ t.1 = 0x37 ∨ t.1 = 0x4A) ∧ ∃ s : Bytes, t.2 = .str s ∧ s.length < 65536)

theorem decodeValue_token {t : Attr} (h : TokenOk t) (r : Bytes) : decodeValue t.1 (plainBytes t.2 ++ r) = .ok (t.2, r) := by
  rcases h with h | ⟨ht, s, hs, hl⟩
  · exact decodeValue_plain h r
  · have hd : decodeValue t.1 (be16 s.length ++ (s ++ r)) = .ok (.str s, r) := by
      rcases ht with ht | ht | ht <;>
      · rw [ht, decodeValue]
        first
          | rw [show kind 0x34 = .coll by decide]
          | rw [show kind 0x37 = .other by decide]
          | rw [show kind 0x4A = .other by decide]
        simp only [rd16_be16, Outcome.bind_ok, Nat.mod_eq_of_lt hl, rdBytes_append s r s.length rfl, Outcome.pure_eq]
    rw [hs, plainBytes, List.append_assoc]
    exact hd

mutual
theorem tokens_ok : (v : Value) → ∀ {top : Bool} {tag : UInt8}, WellTyped top tag v → ∀ t ∈ tokens tag v, TokenOk t
  | .set l, top, tag, h => by
    simp only [WellTyped] at h
    rw [tokens]; exact listTokens_ok l h.2.2
  | .coll m, top, tag, h => by
    simp only [WellTyped] at h
    rw [tokens]
    intro t ht
    rcases List.mem_cons.mp ht with rfl | ht
    · exact .inr ⟨.inl rfl, [], rfl, by decide⟩
    · rcases List.mem_append.mp ht with ht | ht
      · exact memberTokens_ok m h.2.2 t ht
      · obtain rfl := List.mem_singleton.mp ht
        exact .inr ⟨.inr (.inl rfl), [], rfl, by decide⟩
  | .int i, _, _, h => by simp only [WellTyped] at h; rw [tokens]; intro t ht; obtain rfl := List.mem_singleton.mp ht; exact .inl h
  | .bool i, _, _, h => by simp only [WellTyped] at h; rw [tokens]; intro t ht; obtain rfl := List.mem_singleton.mp ht; exact .inl h
  | .date i, _, _, h => by simp only [WellTyped] at h; rw [tokens]; intro t ht; obtain rfl := List.mem_singleton.mp ht; exact .inl h
  | .res _ _ _, _, _, h => by simp only [WellTyped] at h; rw [tokens]; intro t ht; obtain rfl := List.mem_singleton.mp ht; exact .inl h
  | .range _ _, _, _, h => by simp only [WellTyped] at h; rw [tokens]; intro t ht; obtain rfl := List.mem_singleton.mp ht; exact .inl h
  | .str _, _, _, h => by simp only [WellTyped] at h; rw [tokens]; intro t ht; obtain rfl := List.mem_singleton.mp ht; exact .inl h

theorem listTokens_ok : (l : List Value) → ∀ {tag : UInt8}, ListOk tag l → ∀ t ∈ listTokens tag l, TokenOk t
  | [], _, _ => by simp [listTokens]
  | v :: r, tag, h => by
    simp only [ListOk] at h
    rw [listTokens]
    intro t ht
    rcases List.mem_append.mp ht with ht | ht
    · exact tokens_ok v h.1 t ht
    · exact listTokens_ok r h.2 t ht

theorem memberTokens_ok : (m : List (Bytes × (UInt8 × Value))) → MembersOk m → ∀ t ∈ memberTokens m, TokenOk t
  | [], _ => by simp [memberTokens]
  | (name, (tag, v)) :: r, h => by
    simp only [MembersOk] at h
    rw [memberTokens]
    intro t ht
    rcases List.mem_cons.mp ht with rfl | ht
    · exact .inr ⟨.inr (.inr rfl), name, rfl, h.1⟩
    · rcases List.mem_append.mp ht with ht | ht
      · exact tokens_ok v h.2.1 t ht
      · exact memberTokens_ok r h.2.2 t ht
end

/-! ## Unnamed attributes -/

/-- What follows is not an attribute with an empty name. -/
def NotUnnamed (rest : Bytes) : Prop := ∀ t r, rest ≠ t :: 0 :: 0 :: r

theorem getUnnamed_stop {rest : Bytes} (h : NotUnnamed rest) : getUnnamed rest = .ok ([], rest) := by
  cases rest with
  | nil => rw [getUnnamed]
  | cons t r =>
    rw [getUnnamed]
    split
    · rfl
    · rename_i r1 hm
      have := matchBytes_some hm
      exact absurd (by rw [this]; rfl) (h t r1)

theorem getUnnamed_step (t : UInt8) {r1 r2 : Bytes} {v : Value} (h : decodeValue t r1 = .ok (v, r2)) :
    getUnnamed (t :: (be16 0 ++ r1)) = (do let (l, r3) ← getUnnamed r2; return ((t, v) :: l, r3)) := by
  rw [getUnnamed]
  split
  · rename_i hm; simp at hm
  · rename_i r1' hm
    simp only [matchBytes_append, Option.some.injEq] at hm
    subst hm
    split
    · rename_i hd; rw [h] at hd; cases hd
      cases getUnnamed r2 <;> rfl
    · rename_i hd; rw [h] at hd; cases hd
    · rename_i hd; rw [h] at hd; cases hd
    · rename_i hd; rw [h] at hd; cases hd

theorem getUnnamed_tokens (ts : List Attr) (h : ∀ t ∈ ts, TokenOk t) (rest : Bytes) :
    getUnnamed (unnamedBytes ts ++ rest) = (do let (l, r) ← getUnnamed rest; return (ts ++ l, r)) := by
  induction ts with
  | nil => simp only [unnamedBytes, List.flatMap_nil, List.nil_append]; cases getUnnamed rest <;> rfl
  | cons t ts ih =>
    have hd := decodeValue_token (h t (List.mem_cons_self ..)) (unnamedBytes ts ++ rest)
    have : unnamedBytes (t :: ts) ++ rest = t.1 :: (be16 0 ++ (plainBytes t.2 ++ (unnamedBytes ts ++ rest))) := by
      simp [unnamedBytes, tokenBytes]
    rw [this, getUnnamed_step t.1 hd, ih (fun t ht => h t (List.mem_cons_of_mem _ ht))]
    cases getUnnamed rest <;> rfl

/-! ## Collections -/

theorem collect_length (attrs : List Attr) (arr : List Value) (val : Attrs) {v : Value} {r : List Attr}
    (h : collect attrs arr val = .ok (v, r)) : r.length ≤ attrs.length := by
  fun_induction collect attrs arr val generalizing v r <;> try (cases h; done)
  all_goals try (rename_i ih2 ih1; have := ih1 h; simp only [List.length_cons]; omega)
  all_goals try (rename_i ih; have := ih h; simp only [List.length_cons]; omega)
  all_goals try (rename_i ht ih; have := ih h; have := takeSame_length ht; simp only [List.length_cons]; omega)
  all_goals try (cases h; simp)
  all_goals omega

theorem collect_begin {key : Bytes} {v2 : Value} {rest2 : List Attr} {arr : List Value} {val : Attrs} {cv : Value}
    {rest3 : List Attr} (h : collect rest2 [] [] = .ok (cv, rest3)) :
    collect ((tMemberName, .str key) :: (tBeginCollection, v2) :: rest2) arr val =
      collect rest3 arr (val.insertNew key (tBeginCollection, cv)) := by
  rw [collect.eq_def]
  simp only [if_true, h]
  rw [dif_pos (collect_length _ _ _ h)]

theorem collect_member {key : Bytes} {t2 : UInt8} {v2 : Value} {rest2 : List Attr} {arr : List Value} {val : Attrs}
    {vs : List Value} {rest3 : List Attr} (ht : t2 ≠ tBeginCollection) (h : takeSame t2 rest2 = some (vs, rest3)) :
    collect ((tMemberName, .str key) :: (t2, v2) :: rest2) arr val =
      collect rest3 arr (val.insertNew key (t2, memberValue v2 vs)) := by
  rw [collect.eq_def]
  simp only [if_true, if_neg ht]
  split
  · rename_i hn; rw [h] at hn; cases hn
  · rename_i hn; rw [h] at hn; cases hn; rfl

/-- The first of the tokens, if any, does not have this tag. -/
def HeadNot (tag : UInt8) (r : List Attr) : Prop := ∀ t ∈ r.head?, t.1 ≠ tag

theorem collect_end_stop {r : List Attr} (h : HeadNot tBeginCollection r) (v : Value) (arr : List Value) (val : Attrs) :
    collect ((tEndCollection, v) :: r) arr val = .ok (finishCollection (arr ++ [.coll val]), r) := by
  rw [collect.eq_def]
  simp only [show ¬ (tEndCollection = tMemberName) by decide, if_false, if_true]
  cases r with
  | nil => rfl
  | cons t r =>
    have := h t rfl
    simp only [if_neg this]

theorem collect_end_more (v v' : Value) (r : List Attr) (arr : List Value) (val : Attrs) :
    collect ((tEndCollection, v) :: (tBeginCollection, v') :: r) arr val = collect r (arr ++ [.coll val]) [] := by
  rw [collect.eq_def]
  simp only [show ¬ (tEndCollection = tMemberName) by decide, if_false, if_true]

theorem takeSame_stop {tag : UInt8} {r : List Attr} (hr : r ≠ []) (h : HeadNot tag r) : takeSame tag r = some ([], r) := by
  cases r with
  | nil => exact absurd rfl hr
  | cons t r =>
    obtain ⟨t, v⟩ := t
    rw [takeSame, if_neg (h _ rfl)]

/-- A list of plain values. -/
theorem listTokens_plain {tag : UInt8} {l : List Value} (h : ListOk tag l) (ht : tag ≠ 0x34) :
    listTokens tag l = l.map (fun v => (tag, v)) := by
  induction l with
  | nil => rfl
  | cons v l ih =>
    simp only [ListOk] at h
    rw [listTokens, ih h.2]
    cases v with
    | set l => simp [WellTyped] at h
    | coll m => simp only [WellTyped] at h; exact absurd h.1.1 ht
    | _ => rfl

theorem takeSame_plain {tag : UInt8} (l : List Value) {r : List Attr} (hr : r ≠ []) (h : HeadNot tag r) :
    takeSame tag (l.map (fun v => (tag, v)) ++ r) = some (l, r) := by
  induction l with
  | nil => simpa using takeSame_stop hr h
  | cons v l ih => simp [takeSame, ih]

/-- What follows the members of a collection. -/
def AfterMember (r : List Attr) : Prop := ∃ t r', r = t :: r' ∧ (t.1 = tMemberName ∨ t.1 = tEndCollection)

theorem AfterMember.ne {r : List Attr} (h : AfterMember r) : r ≠ [] := by
  obtain ⟨t, r', rfl, _⟩ := h; simp

theorem AfterMember.headNot {r : List Attr} (h : AfterMember r) {tag : UInt8} (h1 : tag ≠ tMemberName) (h2 : tag ≠ tEndCollection) :
    HeadNot tag r := by
  obtain ⟨t, r', rfl, h⟩ := h
  intro t' ht'
  simp only [List.head?_cons, Option.mem_def, Option.some.injEq] at ht'
  subst ht'
  rcases h with h | h <;> rw [h]
  · exact fun h => h1 h.symm
  · exact fun h => h2 h.symm

theorem plainOk_tag {tag : UInt8} {v : Value} (h : PlainOk tag v) : tag ≠ 0x34 ∧ tag ≠ 0x37 ∧ tag ≠ 0x4A := by
  cases v with
  | int i => rcases h.1 with rfl | rfl <;> decide
  | bool b => obtain rfl : tag = 0x22 := h; decide
  | date b => obtain rfl : tag = 0x31 := h; decide
  | res b => obtain rfl : tag = 0x32 := h; decide
  | range b => obtain rfl : tag = 0x33 := h.1; decide
  | str s =>
    have h := h.1
    simp only [stringTags, List.mem_cons, List.not_mem_nil, or_false] at h
    rcases h with rfl | rfl | rfl | rfl | rfl | rfl | rfl | rfl | rfl | rfl | rfl <;> decide
  | set l => exact h.elim
  | coll l => exact h.elim

theorem elem_tag {tag : UInt8} {v : Value} (h : WellTyped false tag v) : tag ≠ 0x37 ∧ tag ≠ 0x4A := by
  cases v with
  | set l => simp [WellTyped] at h
  | coll l => simp only [WellTyped] at h; rw [h.1]; decide
  | _ => simp only [WellTyped] at h; exact (plainOk_tag h).2

theorem afterMember_tokens (m : List (Bytes × (UInt8 × Value))) {r : List Attr} (h : AfterMember r) :
    AfterMember (memberTokens m ++ r) := by
  cases m with
  | nil => exact h
  | cons e m =>
    obtain ⟨name, tag, v⟩ := e
    exact ⟨_, _, by rw [memberTokens]; rfl, .inl rfl⟩

/-- A member whose value is plain. -/
theorem collect_plain {key : Bytes} {tag : UInt8} {v : Value} (hp : PlainOk tag v) (hv : tokens tag v = [(tag, v)])
    {rest : List Attr} (hr : AfterMember rest) (arr : List Value) (val : Attrs) :
    collect ((tMemberName, .str key) :: (tokens tag v ++ rest)) arr val = collect rest arr (val.insertNew key (tag, v)) := by
  have ht := plainOk_tag hp
  rw [hv]
  exact collect_member ht.1 (takeSame_stop hr.ne (hr.headNot ht.2.2 ht.2.1))

mutual
/-- The tokens of a collection, or list of collections, after the first begin token. -/
theorem collect_value : (v : Value) → ∀ {top : Bool}, WellTyped top 0x34 v → ∀ {rest : List Attr},
    HeadNot tBeginCollection rest → collect ((tokens 0x34 v).tail ++ rest) [] [] = .ok (v, rest)
  | .set [], _, h, _, _ => by simp [WellTyped] at h
  | .set [_], _, h, _, _ => by simp [WellTyped] at h
  | .set (v :: w :: l), _, h, rest, hr => by
    simp only [WellTyped] at h
    rw [tokens, collect_list (v :: w :: l) h.2.2 (by simp) [] hr]
    rfl
  | .coll m, top, h, rest, hr => by
    simp only [WellTyped] at h
    rw [tokens, List.tail_cons, List.append_assoc, List.singleton_append,
      collect_members m h.2.2 ⟨_, _, rfl, .inr rfl⟩ [] [], collect_end_stop hr, KMap.insertAll_nil h.2.1]
    rfl
  | .int i, _, h, _, _ => by simp only [WellTyped] at h; exact absurd rfl (plainOk_tag h).1
  | .bool i, _, h, _, _ => by simp only [WellTyped] at h; exact absurd rfl (plainOk_tag h).1
  | .date i, _, h, _, _ => by simp only [WellTyped] at h; exact absurd rfl (plainOk_tag h).1
  | .res _ _ _, _, h, _, _ => by simp only [WellTyped] at h; exact absurd rfl (plainOk_tag h).1
  | .range _ _, _, h, _, _ => by simp only [WellTyped] at h; exact absurd rfl (plainOk_tag h).1
  | .str _, _, h, _, _ => by simp only [WellTyped] at h; exact absurd rfl (plainOk_tag h).1

theorem collect_list : (l : List Value) → ListOk 0x34 l → l ≠ [] → ∀ (arr : List Value) {rest : List Attr},
    HeadNot tBeginCollection rest →
    collect ((listTokens 0x34 l).tail ++ rest) arr [] = .ok (finishCollection (arr ++ l), rest)
  | [], _, hn, _, _, _ => absurd rfl hn
  | .coll m :: r, h, _, arr, rest, hr => by
    simp only [ListOk, WellTyped] at h
    rw [listTokens, tokens, List.cons_append, List.tail_cons, List.append_assoc, List.append_assoc,
      List.singleton_append, collect_members m h.1.2.2 ⟨_, _, rfl, .inr rfl⟩ arr [], KMap.insertAll_nil h.1.2.1]
    cases r with
    | nil => rw [listTokens, List.nil_append, collect_end_stop hr]
    | cons v r =>
      obtain ⟨w, ts, hw⟩ := tokens_head v (by have := h.2; simp only [ListOk] at this; exact this.1)
      have ih := collect_list (v :: r) h.2 (by simp) (arr ++ [.coll m]) hr
      rw [listTokens, hw, List.cons_append, List.tail_cons] at ih
      rw [listTokens, hw, List.cons_append, List.cons_append, collect_end_more, ih]
      simp
  | .set l :: r, h, _, _, _, _ => by simp [ListOk, WellTyped] at h
  | .int i :: r, h, _, _, _, _ => by simp only [ListOk, WellTyped] at h; exact absurd rfl (plainOk_tag h.1).1
  | .bool i :: r, h, _, _, _, _ => by simp only [ListOk, WellTyped] at h; exact absurd rfl (plainOk_tag h.1).1
  | .date i :: r, h, _, _, _, _ => by simp only [ListOk, WellTyped] at h; exact absurd rfl (plainOk_tag h.1).1
  | .res _ _ _ :: r, h, _, _, _, _ => by simp only [ListOk, WellTyped] at h; exact absurd rfl (plainOk_tag h.1).1
  | .range _ _ :: r, h, _, _, _, _ => by simp only [ListOk, WellTyped] at h; exact absurd rfl (plainOk_tag h.1).1
  | .str _ :: r, h, _, _, _, _ => by simp only [ListOk, WellTyped] at h; exact absurd rfl (plainOk_tag h.1).1

theorem collect_members : (m : List (Bytes × (UInt8 × Value))) → MembersOk m → ∀ {rest : List Attr}, AfterMember rest →
    ∀ (arr : List Value) (val : Attrs), collect (memberTokens m ++ rest) arr val = collect rest arr (KMap.insertAll val m)
  | [], _, _, _, _, _ => rfl
  | (name, (tag, v)) :: r, h, rest, hr, arr, val => by
    simp only [MembersOk] at h
    have hr' := afterMember_tokens r hr
    rw [memberTokens, List.cons_append, List.append_assoc, KMap.insertAll, List.foldl_cons]
    rw [← KMap.insertAll, ← collect_members r h.2.2 hr arr]
    have hwt := h.2.1
    by_cases htag : tag = 0x34
    · subst htag
      obtain ⟨w, ts, hw⟩ := tokens_head v hwt
      have ih := collect_value v hwt (hr'.headNot (tag := tBeginCollection) (by decide) (by decide))
      rw [hw, List.tail_cons] at ih
      rw [hw, List.cons_append]
      exact collect_begin ih
    · match v with
      | .set [] => simp [WellTyped] at hwt
      | .set [x] => simp [WellTyped] at hwt
      | .set (x :: y :: l) =>
        simp only [WellTyped] at hwt
        have hx : WellTyped false tag x := by have := hwt.2.2; simp only [ListOk] at this; exact this.1
        have hn := elem_tag hx
        rw [tokens, listTokens_plain hwt.2.2 htag]
        exact collect_member (vs := y :: l) htag (takeSame_plain (y :: l) hr'.ne (hr'.headNot hn.2 hn.1))
      | .coll m => simp only [WellTyped] at hwt; exact absurd hwt.1 htag
      | .int i => simp only [WellTyped] at hwt; exact collect_plain hwt (by rw [tokens]) hr' arr val
      | .bool i => simp only [WellTyped] at hwt; exact collect_plain hwt (by rw [tokens]) hr' arr val
      | .date i => simp only [WellTyped] at hwt; exact collect_plain hwt (by rw [tokens]) hr' arr val
      | .res _ _ _ => simp only [WellTyped] at hwt; exact collect_plain hwt (by rw [tokens]) hr' arr val
      | .range _ _ => simp only [WellTyped] at hwt; exact collect_plain hwt (by rw [tokens]) hr' arr val
      | .str _ => simp only [WellTyped] at hwt; exact collect_plain hwt (by rw [tokens]) hr' arr val
end

/-! ## Attributes -/

/-- Tokens after the first of a well-typed attribute give its value. -/
theorem tokens_collectIf {tag : UInt8} {v : Value} (h : WellTyped true tag v) :
    ∃ w ts, tokens tag v = (tag, w) :: ts ∧
      ∃ v' unnamed, collectIf tag w ts = .ok (v', unnamed) ∧ withUnnamed v' unnamed = v := by
  obtain ⟨w, ts, hw⟩ := tokens_head v h
  refine ⟨w, ts, hw, ?_⟩
  by_cases htag : tag = 0x34
  · subst htag
    have := collect_value v h (rest := []) (by intro t ht; cases ht)
    rw [hw, List.append_nil, List.tail_cons] at this
    exact ⟨v, [], by rw [collectIf, if_pos rfl, this], rfl⟩
  · refine ⟨w, ts, by rw [collectIf, if_neg htag], ?_⟩
    match v with
    | .set [] => simp [WellTyped] at h
    | .set [x] => simp [WellTyped] at h
    | .set (x :: y :: l) =>
      simp only [WellTyped] at h
      rw [tokens, listTokens_plain h.2.2 htag] at hw
      simp only [List.map_cons, List.cons.injEq, Prod.mk.injEq, true_and] at hw
      obtain ⟨rfl, rfl⟩ := hw
      simp [withUnnamed, Function.comp_def]
    | .coll m => simp only [WellTyped] at h; exact absurd h.1 htag
    | .int i => rw [tokens] at hw; cases hw; rfl
    | .bool i => rw [tokens] at hw; cases hw; rfl
    | .date i => rw [tokens] at hw; cases hw; rfl
    | .res _ _ _ => rw [tokens] at hw; cases hw; rfl
    | .range _ _ => rw [tokens] at hw; cases hw; rfl
    | .str _ => rw [tokens] at hw; cases hw; rfl

theorem consumeAttribute_spec {name : Bytes} {attr : Attr} (hn : name.length < 65536) (h : WellTyped true attr.1 attr.2)
    {rest : Bytes} (hr : NotUnnamed rest) :
    consumeAttribute (attrBytes name attr ++ rest) = .ok (name, attr, rest) := by
  obtain ⟨tag, v⟩ := attr
  obtain ⟨w, ts, hw, v', unnamed, hc, hu⟩ := tokens_collectIf h
  have hok := tokens_ok v h
  rw [hw] at hok
  have hd := decodeValue_token (hok _ (List.mem_cons_self ..)) (unnamedBytes ts ++ rest)
  have hg := getUnnamed_tokens ts (fun t ht => hok t (List.mem_cons_of_mem _ ht)) rest
  rw [getUnnamed_stop hr] at hg
  simp only [Outcome.bind_ok, Outcome.pure_eq, List.append_nil] at hg
  simp only [attrBytes, hw, tokenBytes, consumeAttribute, List.append_assoc, List.cons_append, List.nil_append, rd8_cons,
    Outcome.bind_ok,
    rd16_be16, Nat.mod_eq_of_lt hn, rdBytes_append name _ name.length rfl, UInt8.ofNat_toNat]
  simp only at hd
  simp only [hd, Outcome.bind_ok, hg, hc, hu, Outcome.pure_eq]

end Verif.Ipp
