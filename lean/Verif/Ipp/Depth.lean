import Verif.Ipp.Props
import Verif.Ipp.Json

/-!
# C111: how deep the decoder nests

`collectAttributes` calls itself for every collection within a collection, on data from the network, without a limit. Here it is
run on a stack that has room for a given number of its calls.
-/

namespace Verif.Ipp

open Verif.Ipp.Spec

/-- `collectAttributes`, ippmsg.cpp 229-297, with room for `frames` calls on the stack, this one included. Without room the behaviour is
undefined (in practice the program is killed). How large a frame is, is not modelled. -/
def collectOn (frames : Nat) (attrs : List Attr) (resArr : List Value) (resVal : Attrs) : Outcome (Value × List Attr) :=
  match frames with
  | 0 => .ub
  | below + 1 =>
    match attrs with
    | [] => .ok (finishCollection resArr, [])
    | (tag, v) :: rest =>
      if tag = tMemberName then
        match v with
        | .str key =>
          match rest with
          | [] => .throws .logicError
          | (t2, v2) :: rest2 =>
            if t2 = tBeginCollection then
              match collectOn below rest2 [] [] with
              | .ok (cv, rest3) =>
                if h : rest3.length ≤ rest2.length then
                  collectOn (below + 1) rest3 resArr (resVal.insertNew key (tBeginCollection, cv))
                else .hang
              | .throws e => .throws e
              | .ub => .ub
              | .hang => .hang
            else
              match ht : takeSame t2 rest2 with
              | none => .ub
              | some (vs, rest3) => collectOn (below + 1) rest3 resArr (resVal.insertNew key (t2, memberValue v2 vs))
        | _ => .throws .badVariant
      else if tag = tEndCollection then
        match rest with
        | [] => .ok (finishCollection (resArr ++ [.coll resVal]), [])
        | (t2, v2) :: rest2 =>
          if t2 = tBeginCollection then collectOn (below + 1) rest2 (resArr ++ [.coll resVal]) []
          else .ok (finishCollection (resArr ++ [.coll resVal]), (t2, v2) :: rest2)
      else .throws .logicError
  termination_by attrs.length
  decreasing_by
    all_goals simp only [List.length_cons]
    all_goals first
      | omega
      | (have := takeSame_length ht; omega)

/-- ippmsg.cpp 309-312, likewise -/
def collectIfOn (frames : Nat) (tag : UInt8) (v : Value) (unnamed : List Attr) : Outcome (Value × List Attr) :=
  if tag = tBeginCollection then collectOn frames unnamed [] [] else .ok (v, unnamed)

/-- `consumeAttributes`, ippmsg.cpp 299-329, likewise -/
def consumeAttributeOn (frames : Nat) (data : Bytes) : Outcome (Bytes × Attr × Bytes) := do
  let (tag, r) ← rd8 data
  let (n, r) ← rd16 r
  let (name, r) ← rdBytes n r
  let (v, r) ← decodeValue (UInt8.ofNat tag) r
  let (unnamed, r) ← getUnnamed r
  let (v, unnamed) ← collectIfOn frames (UInt8.ofNat tag) v unnamed
  return (name, (UInt8.ofNat tag, withUnnamed v unnamed), r)

theorem consumeAttributeOn_length {frames : Nat} {data name : Bytes} {a : Attr} {r : Bytes} (h : consumeAttributeOn frames data = .ok (name, a, r)) :
    r.length < data.length := by
  unfold consumeAttributeOn at h
  obtain ⟨⟨_, r1⟩, h1, h⟩ := Outcome.bind_eq_ok.mp h
  obtain ⟨⟨_, r2⟩, h2, h⟩ := Outcome.bind_eq_ok.mp h
  obtain ⟨⟨_, r3⟩, h3, h⟩ := Outcome.bind_eq_ok.mp h
  obtain ⟨⟨_, r4⟩, h4, h⟩ := Outcome.bind_eq_ok.mp h
  obtain ⟨⟨_, r5⟩, h5, h⟩ := Outcome.bind_eq_ok.mp h
  obtain ⟨⟨_, r6⟩, h6, h⟩ := Outcome.bind_eq_ok.mp h
  cases h
  have := rd8_length h1; have := rd16_length h2; have := rdBytes_length h3
  have := decodeValue_length h4; have := getUnnamed_length _ h5
  simp only at *; omega

/-- The loop at ippmsg.cpp 16-52, likewise -/
def decodeLoopOn (frames : Nat) (m : Msg) (cur : UInt8) (attrs : Attrs) (data : Bytes) : Outcome (Msg × Bytes) :=
  match data with
  | [] => .ok (m, [])
  | t :: r =>
    if t ≤ tUnsupportedAttrs then
      if t = tEndAttrs then .ok (storeGroup m cur attrs, r)
      else decodeLoopOn frames (storeGroup m cur attrs) t [] r
    else
      match _hc : consumeAttributeOn frames (t :: r) with
      | .ok (name, attr, r') => decodeLoopOn frames m cur (attrs.insertNew name attr) r'
      | .throws e => .throws e
      | .ub => .ub
      | .hang => .hang
  termination_by data.length
  decreasing_by
    · simp
    · have := consumeAttributeOn_length _hc; omega

/-- `IppMsg::IppMsg(Bytestream&)`, ippmsg.cpp 7-53, likewise -/
def decodeMsgOn (frames : Nat) (data : Bytes) : Outcome (Msg × Bytes) := do
  let (maj, r) ← rd8 data
  let (min, r) ← rd8 r
  let (op, r) ← rd16 r
  let (_, r) ← rd32 r
  decodeLoopOn frames { majVsn := .ofNat maj, minVsn := .ofNat min, opOrStatus := .ofNat op } tEndAttrs [] r

/-- `LLVMFuzzerTestOneInput`, ippmsg.cpp 442-456: what it returns. Making JSON of the attributes does not throw (`attrsToJson`). -/
def fuzzOne (frames : Nat) (data : Bytes) : Outcome Int :=
  match decodeMsgOn frames data with
  | .ok _ => .ok 0
  | .throws _ => .ok 0
  | .ub => .ub
  | .hang => .hang

/-! ## A stack that is large enough -/

theorem collectOn_enough (attrs : List Attr) (arr : List Value) (val : Attrs) (frames : Nat) (h : attrs.length < 2 * frames) :
    collectOn frames attrs arr val = collect attrs arr val := by
  generalize hn : attrs.length = n
  induction n using Nat.strongRecOn generalizing attrs arr val frames with
  | ind n ih =>
  obtain ⟨below, rfl⟩ : ∃ b, frames = b + 1 := ⟨frames - 1, by omega⟩
  subst hn
  rw [collectOn.eq_def, collect.eq_def]
  cases attrs with
  | nil => rfl
  | cons a rest =>
    obtain ⟨tag, v⟩ := a
    simp only
    by_cases hm : tag = tMemberName
    · rw [if_pos hm, if_pos hm]
      cases v with
      | str key =>
        cases rest with
        | nil => rfl
        | cons b rest2 =>
          obtain ⟨t2, v2⟩ := b
          simp only [List.length_cons] at h ih ⊢
          by_cases hb : t2 = tBeginCollection
          · rw [if_pos hb, if_pos hb, ih rest2.length (by omega) rest2 [] [] below (by omega) rfl]
            cases hc : collect rest2 [] [] with
            | ok x =>
              obtain ⟨cv, rest3⟩ := x
              have hl := collect_length _ _ _ hc
              simp only
              rw [dif_pos hl, dif_pos hl]
              exact ih rest3.length (by omega) _ _ _ _ (by omega) rfl
            | _ => rfl
          · rw [if_neg hb, if_neg hb]
            split
            · rename_i ht
              split
              · rfl
              · rename_i ht'; rw [ht] at ht'; cases ht'
            · rename_i vs rest3 ht
              have hl := takeSame_length ht
              split
              · rename_i ht'; rw [ht] at ht'; cases ht'
              · rename_i ht'
                rw [ht] at ht'
                cases ht'
                exact ih rest3.length (by omega) _ _ _ _ (by omega) rfl
      | _ => rfl
    · rw [if_neg hm, if_neg hm]
      by_cases he : tag = tEndCollection
      · rw [if_pos he, if_pos he]
        cases rest with
        | nil => rfl
        | cons b rest2 =>
          obtain ⟨t2, v2⟩ := b
          simp only [List.length_cons] at h ih ⊢
          by_cases hb : t2 = tBeginCollection
          · rw [if_pos hb, if_pos hb]
            exact ih rest2.length (by omega) _ _ _ _ (by omega) rfl
          · rw [if_neg hb, if_neg hb]
      · rw [if_neg he, if_neg he]

/-! Every attribute takes five bytes at least. -/

theorem rd16_two {s : Bytes} {x : Nat} {r : Bytes} (h : rd16 s = .ok (x, r)) : r.length + 2 ≤ s.length := by
  unfold rd16 at h; split at h
  · cases h; simp
  · cases h

theorem expect16_two {n : Nat} {s r : Bytes} (h : expect16 n s = .ok r) : r.length + 2 ≤ s.length := by
  obtain ⟨⟨y, r'⟩, h1, h2⟩ := Outcome.bind_eq_ok.mp h
  simp only at h2
  split at h2
  · cases h2; exact rd16_two h1
  · cases h2

theorem match_two {s r : Bytes} (h : matchBytes (be16 0) s = some r) : r.length + 2 ≤ s.length := by
  rw [matchBytes_some h]; simp [be16]

theorem decodeValue_two {tag : UInt8} {s : Bytes} {v : Value} {r : Bytes} (h : decodeValue tag s = .ok (v, r)) : r.length + 2 ≤ s.length := by
  unfold decodeValue at h
  split at h
  · cases h
  · split at h
    · rename_i hm; cases h; exact match_two hm
    · obtain ⟨r1, h1, h⟩ := Outcome.bind_eq_ok.mp h
      obtain ⟨⟨_, r2⟩, h2, h⟩ := Outcome.bind_eq_ok.mp h
      cases h; have := expect16_two h1; have := rdInt_length h2; omega
  · split at h
    · rename_i hm; cases h; exact match_two hm
    · obtain ⟨r1, h1, h⟩ := Outcome.bind_eq_ok.mp h
      obtain ⟨⟨_, r2⟩, h2, h⟩ := Outcome.bind_eq_ok.mp h
      cases h; have := expect16_two h1; have := rd8_length h2; omega
  · split at h
    · rename_i hm; cases h; exact match_two hm
    · obtain ⟨r1, h1, h⟩ := Outcome.bind_eq_ok.mp h
      obtain ⟨⟨_, r2⟩, h2, h⟩ := Outcome.bind_eq_ok.mp h
      cases h; have := expect16_two h1; have := rdDate_length h2; omega
  · split at h
    · rename_i hm; cases h; exact match_two hm
    · obtain ⟨r1, h1, h⟩ := Outcome.bind_eq_ok.mp h
      obtain ⟨⟨_, r2⟩, h2, h⟩ := Outcome.bind_eq_ok.mp h
      obtain ⟨⟨_, r3⟩, h3, h⟩ := Outcome.bind_eq_ok.mp h
      obtain ⟨⟨_, r4⟩, h4, h⟩ := Outcome.bind_eq_ok.mp h
      cases h; have := expect16_two h1; have := rd32_length h2; have := rd32_length h3; have := rd8_length h4
      simp only at *; omega
  · split at h
    · rename_i hm; cases h; exact match_two hm
    · obtain ⟨r1, h1, h⟩ := Outcome.bind_eq_ok.mp h
      obtain ⟨⟨_, r2⟩, h2, h⟩ := Outcome.bind_eq_ok.mp h
      obtain ⟨⟨_, r3⟩, h3, h⟩ := Outcome.bind_eq_ok.mp h
      cases h; have := expect16_two h1; have := rdInt_length h2; have := rdInt_length h3
      simp only at *; omega
  all_goals
    obtain ⟨⟨_, r1⟩, h1, h⟩ := Outcome.bind_eq_ok.mp h
    obtain ⟨⟨_, r2⟩, h2, h⟩ := Outcome.bind_eq_ok.mp h
    cases h; have := rd16_two h1; have := rdBytes_length h2
    simp only at *; omega

theorem getUnnamed_five (data : Bytes) {l : List Attr} {r : Bytes} (h : getUnnamed data = .ok (l, r)) : r.length + 5 * l.length ≤ data.length := by
  fun_induction getUnnamed data generalizing l r with
  | case1 => cases h; simp
  | case2 => cases h; simp
  | case3 tag rest r1 hm v r2 hd attrs r3 hg ih =>
    cases h
    have := ih hg
    have := decodeValue_two hd
    have := match_two hm
    simp only [List.length_cons]; omega
  | _ => cases h

theorem consumeAttributeOn_enough (frames : Nat) (data : Bytes) (h : data.length < 5 + 10 * frames) : consumeAttributeOn frames data = consumeAttribute data := by
  unfold consumeAttributeOn consumeAttribute
  cases h1 : rd8 data with
  | ok x1 =>
    obtain ⟨t, r1⟩ := x1
    simp only [Outcome.bind_ok]
    cases h2 : rd16 r1 with
    | ok x2 =>
      obtain ⟨n, r2⟩ := x2
      simp only [Outcome.bind_ok]
      cases h3 : rdBytes n r2 with
      | ok x3 =>
        obtain ⟨name, r3⟩ := x3
        simp only [Outcome.bind_ok]
        cases h4 : decodeValue (UInt8.ofNat t) r3 with
        | ok x4 =>
          obtain ⟨v, r4⟩ := x4
          simp only [Outcome.bind_ok]
          cases h5 : getUnnamed r4 with
          | ok x5 =>
            obtain ⟨l, r5⟩ := x5
            simp only [Outcome.bind_ok]
            have hl : l.length < 2 * frames := by
              have := rd8_length h1; have := rd16_two h2; have := rdBytes_length h3
              have := decodeValue_two h4; have := getUnnamed_five _ h5
              omega
            have : collectIfOn frames (UInt8.ofNat t) v l = collectIf (UInt8.ofNat t) v l := by
              unfold collectIfOn collectIf
              rw [collectOn_enough l [] [] frames hl]
            rw [this]
          | _ => rfl
        | _ => rfl
      | _ => rfl
    | _ => rfl
  | _ => rfl

theorem decodeLoopOn_enough (frames : Nat) (m : Msg) (cur : UInt8) (acc : Attrs) (data : Bytes) (h : data.length < 5 + 10 * frames) :
    decodeLoopOn frames m cur acc data = decodeLoop m cur acc data := by
  generalize hn : data.length = n
  induction n using Nat.strongRecOn generalizing m cur acc data with
  | ind n ih =>
  subst hn
  rw [decodeLoopOn.eq_def, decodeLoop.eq_def]
  cases data with
  | nil => rfl
  | cons t r =>
    simp only
    split
    · split
      · rfl
      · exact ih r.length (by simp) _ _ _ _ (by simp at h; omega) rfl
    · have hc := consumeAttributeOn_enough frames (t :: r) h
      split
      · rename_i name attr r' h1
        rw [hc] at h1
        have hl := consumeAttribute_length h1
        split
        · rename_i h2
          rw [h1] at h2
          cases h2
          exact ih r'.length hl _ _ _ _ (by omega) rfl
        all_goals (rename_i h2; rw [h1] at h2; cases h2)
      all_goals
        rename_i h1
        rw [hc] at h1
        split <;> rename_i h2 <;> rw [h1] at h2 <;> cases h2 <;> rfl

/-- **C111.** On a stack with room for `frames` calls, every message of fewer than `13 + 10 * frames` bytes is decoded as on an unlimited
one. What is missing: longer messages (`C111_deep_false`). -/
theorem C111_enough_partial (frames : Nat) (data : Bytes) (h : data.length < 13 + 10 * frames) : decodeMsgOn frames data = decodeMsg data := by
  unfold decodeMsgOn decodeMsg
  cases h1 : rd8 data with
  | ok x1 =>
    obtain ⟨t, r1⟩ := x1
    simp only [Outcome.bind_ok]
    cases h2 : rd8 r1 with
    | ok x2 =>
      obtain ⟨n, r2⟩ := x2
      simp only [Outcome.bind_ok]
      cases h3 : rd16 r2 with
      | ok x3 =>
        obtain ⟨o, r3⟩ := x3
        simp only [Outcome.bind_ok]
        cases h4 : rd32 r3 with
        | ok x4 =>
          obtain ⟨v, r4⟩ := x4
          simp only [Outcome.bind_ok]
          have hl : r4.length < 5 + 10 * frames := by
            have := rd8_length h1; have := rd8_length h2; have := rd16_two h3
            have : r4.length + 4 ≤ r3.length := by unfold rd32 at h4; split at h4 <;> cases h4; simp
            omega
          exact decodeLoopOn_enough frames _ _ _ r4 hl
        | _ => rfl
      | _ => rfl
    | _ => rfl
  | _ => rfl

/-! ## Messages that need more -/

/-- `k` times the name of a member and the begin of a collection -/
def deepTokens (key : Bytes) : Nat → List Attr
  | 0 => []
  | k + 1 => (tMemberName, .str key) :: (tBeginCollection, .str []) :: deepTokens key k

/-- A collection within a collection, and so on. -/
def deepValue (key : Bytes) : Nat → Value
  | 0 => .coll []
  | k + 1 => .coll [(key, (tBeginCollection, deepValue key k))]

/-- the ends of `k` collections -/
def ends (k : Nat) : List Attr := List.replicate k (tEndCollection, .str [])

theorem collectOn_deep (key : Bytes) (frames k : Nat) (h : frames ≤ k) (rest : List Attr) (arr : List Value) (val : Attrs) :
    collectOn frames (deepTokens key k ++ rest) arr val = .ub := by
  induction frames generalizing k arr val with
  | zero => rw [collectOn.eq_def]
  | succ f ih =>
    obtain ⟨j, rfl⟩ : ∃ j, k = j + 1 := ⟨k - 1, by omega⟩
    rw [collectOn.eq_def]
    simp only [deepTokens, List.cons_append, if_true]
    rw [ih j (by omega) [] []]

theorem collect_open (key : Bytes) (k : Nat) (arr : List Value) (val : Attrs) : collect (deepTokens key k) arr val = .ok (finishCollection arr, []) := by
  induction k generalizing arr val with
  | zero => rw [deepTokens, collect]
  | succ k ih =>
    rw [collect.eq_def]
    simp only [deepTokens, if_true]
    rw [ih [] []]
    simp only [List.length_nil, Nat.zero_le, dif_pos]
    rw [collect]

theorem collect_ends (j : Nat) (val : Attrs) : collect (ends (j + 1)) [] val = .ok (.coll val, ends j) := by
  rw [collect.eq_def]
  simp only [ends, List.replicate_succ]
  rw [if_neg (by decide), if_true]
  cases j with
  | zero => rfl
  | succ j => simp only [List.replicate_succ]; rw [if_neg (by decide)]; rfl

theorem collect_closed (key : Bytes) (k j : Nat) : collect (deepTokens key k ++ ends (k + 1 + j)) [] [] = .ok (deepValue key k, ends j) := by
  induction k generalizing j with
  | zero => rw [deepTokens, List.nil_append, show 0 + 1 + j = j + 1 by omega, collect_ends]; rfl
  | succ k ih =>
    rw [collect.eq_def]
    simp only [deepTokens, List.cons_append, if_true]
    rw [show k + 1 + 1 + j = k + 1 + (j + 1) by omega, ih (j + 1)]
    simp only
    rw [dif_pos (by simp [ends]; omega), collect_ends]
    rfl

theorem deep_ok (key : Bytes) (hk : key.length < 65536) (k : Nat) : ∀ t ∈ deepTokens key k, TokenOk t := by
  induction k with
  | zero => intro t ht; cases ht
  | succ k ih =>
    intro t ht
    simp only [deepTokens, List.mem_cons] at ht
    rcases ht with rfl | rfl | ht
    · exact .inr ⟨.inr (.inr rfl), _, rfl, hk⟩
    · exact .inr ⟨.inl rfl, _, rfl, by decide⟩
    · exact ih t ht

theorem ends_ok (k : Nat) : ∀ t ∈ ends k, TokenOk t := by
  intro t ht
  rw [List.eq_of_mem_replicate ht]
  exact .inr ⟨.inr (.inl rfl), _, rfl, by decide⟩

/-- the bytes of an attribute with the given tokens after the first, `name` being its name -/
def deepAttr (name : Bytes) (ts : List Attr) : Bytes := tokenBytes name (tBeginCollection, .str []) ++ unnamedBytes ts

theorem consume_deep (name : Bytes) (hn : name.length < 65536) (ts : List Attr) (ht : ∀ t ∈ ts, TokenOk t) (rest : Bytes) (hr : NotUnnamed rest)
    (frames : Nat) :
    consumeAttribute (deepAttr name ts ++ rest) = (do let (v, u) ← collect ts [] []; return (name, (tBeginCollection, withUnnamed v u), rest)) ∧
    consumeAttributeOn frames (deepAttr name ts ++ rest) = (do let (v, u) ← collectOn frames ts [] []; return (name, (tBeginCollection, withUnnamed v u), rest)) := by
  have hd := decodeValue_token (t := (tBeginCollection, .str [])) (.inr ⟨.inl rfl, _, rfl, by decide⟩) (unnamedBytes ts ++ rest)
  have hg := getUnnamed_tokens ts ht rest
  rw [getUnnamed_stop hr] at hg
  simp only [Outcome.bind_ok, Outcome.pure_eq, List.append_nil] at hg
  simp only at hd
  constructor
  · simp only [deepAttr, tokenBytes, consumeAttribute, List.append_assoc, List.cons_append, List.nil_append, rd8_cons, Outcome.bind_ok,
      rd16_be16, Nat.mod_eq_of_lt hn, rdBytes_append name _ name.length rfl, UInt8.ofNat_toNat, hd, hg]
    rfl
  · simp only [deepAttr, tokenBytes, consumeAttributeOn, List.append_assoc, List.cons_append, List.nil_append, rd8_cons, Outcome.bind_ok,
      rd16_be16, Nat.mod_eq_of_lt hn, rdBytes_append name _ name.length rfl, UInt8.ofNat_toNat, hd, hg]
    rfl

theorem loop_deep (frames : Nat) (m : Msg) (cur : UInt8) (acc : Attrs) (name : Bytes) (hn : name.length < 65536) (ts : List Attr) (ht : ∀ t ∈ ts, TokenOk t)
    (rest : Bytes) (hr : NotUnnamed rest) :
    (∀ v, collect ts [] [] = .ok (v, []) → decodeLoop m cur acc (deepAttr name ts ++ rest) = decodeLoop m cur (acc.insertNew name (tBeginCollection, v)) rest) ∧
    (collectOn frames ts [] [] = .ub → decodeLoopOn frames m cur acc (deepAttr name ts ++ rest) = .ub) := by
  obtain ⟨h1, h2⟩ := consume_deep name hn ts ht rest hr frames
  obtain ⟨x, hx⟩ : ∃ x, deepAttr name ts ++ rest = tBeginCollection :: x := ⟨_, rfl⟩
  rw [hx] at h1 h2 ⊢
  refine ⟨fun v hv => ?_, fun hv => ?_⟩
  · rw [decodeLoop_other (by decide), h1, hv]
    rfl
  · rw [decodeLoopOn.eq_def]
    simp only
    rw [if_neg (by decide)]
    rw [hv] at h2
    split
    · rename_i h3; rw [h2] at h3; cases h3
    · rename_i h3; rw [h2] at h3; cases h3
    · rfl
    · rename_i h3; rw [h2] at h3; cases h3

theorem bytes_deep (key : Bytes) (k : Nat) : (unnamedBytes (deepTokens key k)).length = (10 + key.length) * k := by
  induction k with
  | zero => rfl
  | succ k ih =>
    simp only [deepTokens, unnamedBytes, List.flatMap_cons, List.length_append] at ih ⊢
    rw [ih]
    simp only [tokenBytes, plainBytes, List.length_append, List.length_cons, List.length_nil]
    have : ∀ n, (be16 n).length = 2 := fun n => rfl
    simp only [this, Nat.mul_succ]
    omega

/-- The full claim: some stack is enough for all messages. -/
def C111 : Prop := ∃ frames, ∀ data, decodeMsgOn frames data = decodeMsg data

/-- **C111**: the bound of `C111_enough_partial` is exact: there is a message of `13 + 10 * frames` bytes that needs one call more. On an unlimited
stack it would be decoded. -/
theorem C111_deep_false (frames : Nat) : ∃ data, data.length = 13 + 10 * frames ∧ (∃ x, decodeMsg data = .ok x) ∧ decodeMsgOn frames data = .ub := by
  refine ⟨[1, 1, 0, 0, 0, 0, 0, 1] ++ deepAttr [] (deepTokens [] frames), ?_, ?_, ?_⟩
  · rw [List.length_append, deepAttr, List.length_append, bytes_deep]
    show 8 + (5 + (10 + 0) * frames) = _
    omega
  · obtain ⟨h, _⟩ := loop_deep frames { majVsn := 1, minVsn := 1, opOrStatus := 0 } tEndAttrs [] [] (by decide) (deepTokens [] frames) (deep_ok [] (by decide) frames) []
      (by intro t r h; cases h)
    have := h _ (collect_open [] frames [] [])
    rw [List.append_nil] at this
    refine ⟨({ majVsn := 1, minVsn := 1, opOrStatus := 0 }, []), ?_⟩
    show decodeLoop { majVsn := 1, minVsn := 1, opOrStatus := 0 } tEndAttrs [] (deepAttr [] (deepTokens [] frames)) = _
    rw [this, decodeLoop_nil]
  · obtain ⟨_, h⟩ := loop_deep frames { majVsn := 1, minVsn := 1, opOrStatus := 0 } tEndAttrs [] [] (by decide) (deepTokens [] frames) (deep_ok [] (by decide) frames) []
      (by intro t r h; cases h)
    have := h (by have := collectOn_deep [] frames frames (Nat.le_refl _) [] [] []; rwa [List.append_nil] at this)
    rw [List.append_nil] at this
    exact this

/-- **C111**: it is false also for proper messages: an answer with one attribute, a collection with collections as deep as one likes, takes `16` bytes for each. -/
theorem C111_proper_false (frames : Nat) : ∃ data, data.length = 21 + 16 * frames ∧
    decodeMsg data = .ok ({ majVsn := 1, minVsn := 1, opOrStatus := 0, printerAttrs := [(ascii "c", (0x34, deepValue (ascii "a") frames))] }, []) ∧
    decodeMsgOn frames data = .ub := by
  have hok : ∀ t ∈ deepTokens (ascii "a") frames ++ ends (frames + 1), TokenOk t := by
    intro t ht
    rcases List.mem_append.mp ht with ht | ht
    · exact deep_ok (ascii "a") (by decide) frames t ht
    · exact ends_ok _ t ht
  have hl := fun acc => loop_deep frames { majVsn := 1, minVsn := 1, opOrStatus := 0 } 4 acc (ascii "c") (by decide) _ hok [3] (by intro t r h; cases h)
  refine ⟨[1, 1, 0, 0, 0, 0, 0, 1] ++ (4 :: (deepAttr (ascii "c") (deepTokens (ascii "a") frames ++ ends (frames + 1)) ++ [3])), ?_, ?_, ?_⟩
  · rw [List.length_append, List.length_cons (a := (4 : UInt8)), List.length_append, deepAttr, List.length_append, unnamedBytes_append, List.length_append, bytes_deep]
    have : (unnamedBytes (ends (frames + 1))).length = 5 * (frames + 1) := by
      generalize frames + 1 = n
      induction n with
      | zero => rfl
      | succ n ih =>
        simp only [ends, List.replicate_succ, unnamedBytes, List.flatMap_cons, List.length_append] at ih ⊢
        rw [ih]
        simp only [tokenBytes, plainBytes, List.length_append, List.length_cons, List.length_nil]
        have : ∀ n, (be16 n).length = 2 := fun n => rfl
        simp only [this]
        omega
    rw [this]
    show 8 + (6 + ((10 + 1) * frames + 5 * (frames + 1)) + 1 + 1) = _
    omega
  · show decodeLoop { majVsn := 1, minVsn := 1, opOrStatus := 0 } tEndAttrs [] (4 :: _) = _
    rw [decodeLoop_delim (by decide) (by decide), storeGroup_end, (hl []).1 _ (by have := collect_closed (ascii "a") frames 0; exact this), decodeLoop_end]
    rfl
  · show decodeLoopOn frames { majVsn := 1, minVsn := 1, opOrStatus := 0 } tEndAttrs [] (4 :: _) = _
    rw [decodeLoopOn.eq_def]
    simp only
    rw [if_pos (by decide), if_neg (by decide)]
    exact (hl []).2 (collectOn_deep _ _ _ (Nat.le_refl _) _ _ _)

theorem C111_false : ¬ C111 := by
  rintro ⟨frames, h⟩
  obtain ⟨data, _, h1, h2⟩ := C111_proper_false frames
  rw [← h data, h2] at h1
  cases h1

/-- **C111**: what the fuzzer calls returns 0, for data that C23 covers and that is not too long for the stack. -/
theorem C111_fuzz_partial (frames : Nat) (data : Bytes) (hl : data.length < 13 + 10 * frames)
    (h : ∀ pre rest ts r, data = pre ++ rest → getUnnamed rest = .ok (ts, r) → ¬ EndsInMember ts) : fuzzOne frames data = .ok 0 := by
  have := C23_no_ub_partial data h
  rw [fuzzOne, C111_enough_partial frames data hl]
  cases hd : decodeMsg data with
  | ok x => rfl
  | throws e => rfl
  | ub => rw [hd] at this; exact this.elim
  | hang => rw [hd] at this; exact this.elim

/-- one frame is enough for a collection without collections in it -/
example : decodeMsgOn 1 [1, 1, 0, 0, 0, 0, 0, 1, 4, 0x34, 0, 1, 99, 0, 0, 0x37, 0, 0, 0, 0, 3] =
    decodeMsg [1, 1, 0, 0, 0, 0, 0, 1, 4, 0x34, 0, 1, 99, 0, 0, 0x37, 0, 0, 0, 0, 3] := C111_enough_partial 1 _ (by decide)

example : fuzzOne 0 (ascii "any text") = .ok 0 := by decide +kernel

end Verif.Ipp
