import Verif.Ipp.DecodeLemmas

/-!
# How large a decoded message can be (lib/ippmsg.cpp); property C116

A property of the model in `Msg.lean`, for any data.
-/

namespace Verif.Ipp

/-! ## Specification -/

namespace Spec

mutual
/-- The size of a value: one for each value in it, and the bytes of its strings and of the names of its members, with one for each name. -/
def size : Value → Nat
  | .str s => 1 + s.length
  | .set l => 1 + sizeAll l
  | .coll m => 1 + sizeNamed m
  | _ => 1
/-- The size of values -/
def sizeAll : List Value → Nat
  | [] => 0
  | v :: l => size v + sizeAll l
/-- The size of named values -/
def sizeNamed : List (Bytes × (UInt8 × Value)) → Nat
  | [] => 0
  | (key, (_, v)) :: m => 1 + key.length + size v + sizeNamed m
end

/-- The size of groups of attributes -/
def sizeGroups : List Attrs → Nat
  | [] => 0
  | g :: gs => 1 + sizeNamed g + sizeGroups gs

/-- The size of a message -/
def sizeMsg (m : Msg) : Nat := sizeNamed m.opAttrs + sizeGroups m.jobAttrs + sizeNamed m.printerAttrs

end Spec

open Verif.Ipp.Spec

/-! ## Proofs -/

theorem size_pos (v : Value) : 1 ≤ size v := by
  cases v <;> simp only [size] <;> omega

theorem decodeValue_size {tag : UInt8} {s : Bytes} {v : Value} {r : Bytes} (h : decodeValue tag s = .ok (v, r)) : size v + 1 + r.length ≤ s.length := by
  have m : ∀ {r : Bytes}, matchBytes (be16 0) s = some r → 1 + 1 + r.length ≤ s.length := by
    intro r hm
    rw [matchBytes_some hm]
    simp [be16]
    omega
  unfold decodeValue at h
  split at h
  · cases h
  · split at h
    · rename_i hm; cases h; exact m hm
    · obtain ⟨r1, h1, h⟩ := Outcome.bind_eq_ok.mp h
      obtain ⟨⟨_, r2⟩, h2, h⟩ := Outcome.bind_eq_ok.mp h
      cases h; have := expect16_length h1; have := rdInt_length h2; simp only [size]; omega
  · split at h
    · rename_i hm; cases h; exact m hm
    · obtain ⟨r1, h1, h⟩ := Outcome.bind_eq_ok.mp h
      obtain ⟨⟨_, r2⟩, h2, h⟩ := Outcome.bind_eq_ok.mp h
      cases h; have := expect16_length h1; have := rd8_length h2; simp only [size]; omega
  · split at h
    · rename_i hm; cases h; exact m hm
    · obtain ⟨r1, h1, h⟩ := Outcome.bind_eq_ok.mp h
      obtain ⟨⟨_, r2⟩, h2, h⟩ := Outcome.bind_eq_ok.mp h
      cases h; have := expect16_length h1; have := rdDate_length h2; simp only [size]; omega
  · split at h
    · rename_i hm; cases h; exact m hm
    · obtain ⟨r1, h1, h⟩ := Outcome.bind_eq_ok.mp h
      obtain ⟨⟨_, r2⟩, h2, h⟩ := Outcome.bind_eq_ok.mp h
      obtain ⟨⟨_, r3⟩, h3, h⟩ := Outcome.bind_eq_ok.mp h
      obtain ⟨⟨_, r4⟩, h4, h⟩ := Outcome.bind_eq_ok.mp h
      cases h; have := expect16_length h1; have := rd32_length h2; have := rd32_length h3; have := rd8_length h4
      simp only [size] at *; omega
  · split at h
    · rename_i hm; cases h; exact m hm
    · obtain ⟨r1, h1, h⟩ := Outcome.bind_eq_ok.mp h
      obtain ⟨⟨_, r2⟩, h2, h⟩ := Outcome.bind_eq_ok.mp h
      obtain ⟨⟨_, r3⟩, h3, h⟩ := Outcome.bind_eq_ok.mp h
      cases h; have := expect16_length h1; have := rdInt_length h2; have := rdInt_length h3
      simp only [size] at *; omega
  all_goals
    obtain ⟨⟨_, r1⟩, h1, h⟩ := Outcome.bind_eq_ok.mp h
    obtain ⟨⟨_, r2⟩, h2, h⟩ := Outcome.bind_eq_ok.mp h
    have l1 : r1.length + 2 = s.length := by
      unfold rd16 at h1
      split at h1
      · cases h1; simp
      · cases h1
    obtain ⟨l2, l3⟩ := rdBytes_ok h2
    cases h
    rw [l2, List.length_append] at l1
    simp only [size] at *; omega

/-- What the bytes of unnamed values pay for -/
def credit : List Attr → Nat
  | [] => 0
  | (_, v) :: l => 4 + size v + credit l

theorem getUnnamed_size (data : Bytes) {l : List Attr} {r : Bytes} (h : getUnnamed data = .ok (l, r)) : credit l + r.length ≤ data.length := by
  fun_induction getUnnamed data generalizing l r with
  | case1 => cases h; simp [credit]
  | case2 => cases h; simp [credit]
  | case3 tag rest r1 hm v r2 hd attrs r3 hg ih =>
    cases h
    have i := ih hg
    have l1 := decodeValue_size hd
    have l2 : r1.length + 2 = rest.length := by rw [matchBytes_some hm]; simp [be16]
    simp only [List.length_cons, credit]; omega
  | _ => cases h

theorem takeSame_size {tag : UInt8} {l : List Attr} {vs : List Value} {r : List Attr} (h : takeSame tag l = some (vs, r)) : sizeAll vs + credit r ≤ credit l := by
  induction l generalizing vs with
  | nil => cases h
  | cons e l ih =>
    obtain ⟨t, v⟩ := e
    rw [takeSame] at h
    split at h
    · cases hl : takeSame tag l with
      | none => rw [hl] at h; cases h
      | some p =>
        obtain ⟨p1, p2⟩ := p
        rw [hl] at h
        simp only [Option.map_some, Option.some.injEq, Prod.mk.injEq] at h
        obtain ⟨rfl, rfl⟩ := h
        have := ih hl
        simp only [sizeAll, credit]; omega
    · cases h; simp [sizeAll]

theorem sizeAll_append (a b : List Value) : sizeAll (a ++ b) = sizeAll a + sizeAll b := by
  induction a with
  | nil => simp [sizeAll]
  | cons v a ih => simp only [List.cons_append, sizeAll, ih]; omega

theorem finishCollection_size (l : List Value) : size (finishCollection l) ≤ 1 + sizeAll l := by
  unfold finishCollection
  split
  · simp only [sizeAll]; omega
  · simp only [size]; omega

theorem memberValue_size (v : Value) (l : List Value) : size (memberValue v l) ≤ 1 + size v + sizeAll l := by
  unfold memberValue
  split
  · omega
  · simp only [size, sizeAll]; omega

theorem insertNew_size (m : Attrs) (key : Bytes) (a : Attr) : sizeNamed (m.insertNew key a) ≤ sizeNamed m + (1 + key.length + size a.2) := by
  induction m with
  | nil => simp [KMap.insertNew, sizeNamed]
  | cons e m ih =>
    obtain ⟨k', t', v'⟩ := e
    rw [KMap.insertNew]
    split
    · simp only [sizeNamed]; omega
    · split
      · omega
      · simp only [sizeNamed]
        omega

theorem collect_size (attrs : List Attr) (resArr : List Value) (resVal : Attrs) {v : Value} {r : List Attr} (h : collect attrs resArr resVal = .ok (v, r)) :
    size v + credit r ≤ credit attrs + sizeAll resArr + sizeNamed resVal + 1 := by
  fun_induction collect attrs resArr resVal generalizing v r with
  | case1 resArr resVal => cases h; have := finishCollection_size resArr; simp only [credit]; omega
  | case2 => cases h
  | case3 resArr resVal key v2 rest2 cv rest3 hc hl ih1 ih2 =>
    have i1 := ih1 hc
    have i2 := ih2 h
    have l1 := insertNew_size resVal key (tBeginCollection, cv)
    simp only [credit, size, sizeAll, sizeNamed] at *
    omega
  | case9 resArr resVal key t2 v2 rest2 ht vs rest3 hs ih =>
    have i := ih h
    have l1 := insertNew_size resVal key (t2, memberValue v2 vs)
    have l2 := memberValue_size v2 vs
    have l3 := takeSame_size hs
    simp only [credit, size] at *
    omega
  | case11 resArr resVal v' hne => 
    cases h
    have l1 := finishCollection_size (resArr ++ [.coll resVal])
    rw [sizeAll_append] at l1
    have l2 := size_pos v'
    simp only [credit, sizeAll, size] at *
    omega
  | case12 resArr resVal v' hne v2 rest2 ih =>
    have i := ih h
    rw [sizeAll_append] at i
    have l2 := size_pos v'
    simp only [credit, sizeAll, sizeNamed, size] at *
    omega
  | case13 resArr resVal v' hne t2 v2 rest2 h2 =>
    cases h
    have l1 := finishCollection_size (resArr ++ [.coll resVal])
    rw [sizeAll_append] at l1
    have l2 := size_pos v'
    simp only [credit, sizeAll, size] at *
    omega
  | _ => cases h

theorem sizeAll_credit (l : List Attr) : sizeAll (l.map fun a => a.2) ≤ credit l := by
  induction l with
  | nil => simp [sizeAll]
  | cons e l ih => obtain ⟨t, v⟩ := e; simp only [List.map_cons, sizeAll, credit]; omega

theorem withUnnamed_size (v : Value) (l : List Attr) : size (withUnnamed v l) ≤ 1 + size v + credit l := by
  have := sizeAll_credit l
  unfold withUnnamed
  split
  · omega
  · simp only [size, sizeAll]; omega

theorem consumeAttribute_size {data name : Bytes} {a : Attr} {r : Bytes} (h : consumeAttribute data = .ok (name, a, r)) :
    1 + name.length + size a.2 + r.length ≤ data.length := by
  unfold consumeAttribute at h
  obtain ⟨⟨n1, r1⟩, h1, h⟩ := Outcome.bind_eq_ok.mp h
  obtain ⟨⟨n2, r2⟩, h2, h⟩ := Outcome.bind_eq_ok.mp h
  obtain ⟨⟨n3, r3⟩, h3, h⟩ := Outcome.bind_eq_ok.mp h
  obtain ⟨⟨v4, r4⟩, h4, h⟩ := Outcome.bind_eq_ok.mp h
  obtain ⟨⟨l5, r5⟩, h5, h⟩ := Outcome.bind_eq_ok.mp h
  obtain ⟨⟨v6, l6⟩, h6, h⟩ := Outcome.bind_eq_ok.mp h
  cases h
  have k1 := rd8_length h1; have k2 := rd16_length h2
  have k3 := congrArg List.length (rdBytes_ok h3).1
  rw [List.length_append] at k3
  have k4 := decodeValue_size h4; have k5 := getUnnamed_size _ h5
  have k6 := withUnnamed_size v6 l6
  have k7 := size_pos v4
  simp only at *
  unfold collectIf at h6
  split at h6
  · have k8 := collect_size _ _ _ h6
    simp only [sizeAll, sizeNamed] at k8
    omega
  · cases h6
    omega

theorem sizeGroups_append (a b : List Attrs) : sizeGroups (a ++ b) = sizeGroups a + sizeGroups b := by
  induction a with
  | nil => simp [sizeGroups]
  | cons v a ih => simp only [List.cons_append, sizeGroups, ih]; omega

theorem storeGroup_size (m : Msg) (tag : UInt8) (attrs : Attrs) : sizeMsg (storeGroup m tag attrs) ≤ sizeMsg m + 1 + sizeNamed attrs := by
  unfold storeGroup
  split
  · simp only [sizeMsg]; omega
  · split
    · simp only [sizeMsg, sizeGroups_append, sizeGroups]; omega
    · split
      · simp only [sizeMsg]; omega
      · omega

theorem decodeLoop_size (m : Msg) (cur : UInt8) (attrs : Attrs) (data : Bytes) {m' : Msg} {r : Bytes} (h : decodeLoop m cur attrs data = .ok (m', r)) :
    sizeMsg m' + r.length ≤ sizeMsg m + sizeNamed attrs + data.length := by
  fun_induction decodeLoop m cur attrs data with
  | case1 => cases h; simp
  | case2 m cur attrs r' h1 =>
    cases h
    have := storeGroup_size m cur attrs
    simp only [List.length_cons]; omega
  | case3 m cur attrs t r' h1 h2 ih =>
    have i := ih h
    have := storeGroup_size m cur attrs
    simp only [List.length_cons, sizeNamed] at *; omega
  | case4 m cur attrs t r' h1 name attr r'' hc ih =>
    have i := ih h
    have k1 := consumeAttribute_size hc
    have k2 := insertNew_size attrs name attr
    omega
  | _ => cases h

/-! ## Property C116 -/

/-- **C116**, messages: a decoded message, with what is left of the data, is not larger than the data without its first 8 bytes. -/
theorem C116_message (data : Bytes) (m : Msg) (rest : Bytes) (h : decodeMsg data = .ok (m, rest)) : sizeMsg m + rest.length + 8 ≤ data.length := by
  unfold decodeMsg at h
  obtain ⟨⟨n1, r1⟩, h1, h⟩ := Outcome.bind_eq_ok.mp h
  obtain ⟨⟨n2, r2⟩, h2, h⟩ := Outcome.bind_eq_ok.mp h
  obtain ⟨⟨n3, r3⟩, h3, h⟩ := Outcome.bind_eq_ok.mp h
  obtain ⟨⟨n4, r4⟩, h4, h⟩ := Outcome.bind_eq_ok.mp h
  have k := decodeLoop_size _ _ _ _ h
  have k1 : r1.length + 1 = data.length := by unfold rd8 at h1; split at h1 <;> cases h1; simp
  have k2 : r2.length + 1 = r1.length := by unfold rd8 at h2; split at h2 <;> cases h2; simp
  have k3 : r3.length + 2 = r2.length := by unfold rd16 at h3; split at h3 <;> cases h3; simp
  have k4 : r4.length + 4 = r3.length := by unfold rd32 at h4; split at h4 <;> cases h4; simp
  simp only [sizeMsg, sizeNamed, sizeGroups] at k ⊢
  omega

/-- A message with a collection with a set in a collection: 56 bytes and one that is left, for a size of 12 -/
example :
    let m : Msg := { jobAttrs := [[([97], (0x34, .coll [([98], (0x34, .coll [([99], (0x21, .set [.int 5, .int 0]))]))]))]] }
    decodeMsg ([1, 1, 0, 0, 0, 0, 0, 1, 2] ++ ([0x34, 0, 1, 97, 0, 0] ++ [0x4a, 0, 0, 0, 1, 98] ++ [0x34, 0, 0, 0, 0] ++ [0x4a, 0, 0, 0, 1, 99] ++
      [0x21, 0, 0, 0, 4, 0, 0, 0, 5] ++ [0x21, 0, 0, 0, 0] ++ [0x37, 0, 0, 0, 0] ++ [0x37, 0, 0, 0, 0]) ++ [3, 7]) = .ok (m, [7]) ∧ sizeMsg m = 12 := by
  decide +kernel

end Verif.Ipp
