import Verif.Ipp.MsgLemmas

/-!
# Decoding arbitrary data
-/

namespace Verif.Ipp

open Spec Raster

theorem Outcome.bind_ne_hang {α β : Type} {x : Outcome α} {f : α → Outcome β} (hx : x ≠ .hang) (hf : ∀ a, x = .ok a → f a ≠ .hang) :
    (x >>= f) ≠ .hang := by
  cases x with
  | ok a => exact hf a rfl
  | throws e => intro h; cases h
  | ub => intro h; cases h
  | hang => exact absurd rfl hx

theorem Outcome.bind_eq_ub {α β : Type} {x : Outcome α} {f : α → Outcome β} (h : (x >>= f) = .ub) :
    x = .ub ∨ ∃ a, x = .ok a ∧ f a = .ub := by
  cases x with
  | ok a => exact .inr ⟨a, rfl, h⟩
  | throws e => cases h
  | ub => exact .inl rfl
  | hang => cases h

theorem Outcome.bind_defined {α β : Type} {x : Outcome α} {f : α → Outcome β} (hx : x.Defined) (hf : ∀ a, x = .ok a → (f a).Defined) :
    (x >>= f).Defined := by
  cases x with
  | ok a => exact hf a rfl
  | throws e => exact trivial
  | ub => exact hx.elim
  | hang => exact hx.elim

theorem rd8_defined (s : Bytes) : (rd8 s).Defined := by unfold rd8; split <;> exact trivial
theorem rd16_defined (s : Bytes) : (rd16 s).Defined := by unfold rd16; split <;> exact trivial
theorem rd32_defined (s : Bytes) : (rd32 s).Defined := by unfold rd32; split <;> exact trivial
theorem rdBytes_defined (n : Nat) (s : Bytes) : (rdBytes n s).Defined := by unfold rdBytes; split <;> exact trivial
theorem rdInt_defined (s : Bytes) : (rdInt s).Defined := Outcome.bind_defined (rd32_defined s) (fun _ _ => trivial)
theorem expect16_defined (n : Nat) (s : Bytes) : (expect16 n s).Defined := by
  refine Outcome.bind_defined (rd16_defined s) (fun a _ => ?_)
  simp only
  split <;> exact trivial

theorem rdDate_defined (s : Bytes) : (rdDate s).Defined := by
  unfold rdDate
  refine Outcome.bind_defined (rd16_defined _) (fun _ _ => ?_)
  refine Outcome.bind_defined (rd8_defined _) (fun _ _ => ?_)
  refine Outcome.bind_defined (rd8_defined _) (fun _ _ => ?_)
  refine Outcome.bind_defined (rd8_defined _) (fun _ _ => ?_)
  refine Outcome.bind_defined (rd8_defined _) (fun _ _ => ?_)
  refine Outcome.bind_defined (rd8_defined _) (fun _ _ => ?_)
  refine Outcome.bind_defined (rd8_defined _) (fun _ _ => ?_)
  refine Outcome.bind_defined (rd8_defined _) (fun _ _ => ?_)
  refine Outcome.bind_defined (rd8_defined _) (fun _ _ => ?_)
  refine Outcome.bind_defined (rd8_defined _) (fun _ _ => ?_)
  exact trivial

theorem decodeValue_defined (tag : UInt8) (s : Bytes) : (decodeValue tag s).Defined := by
  unfold decodeValue
  split
  · exact trivial
  · split
    · exact trivial
    · exact Outcome.bind_defined (expect16_defined _ _) fun _ _ => Outcome.bind_defined (rdInt_defined _) fun _ _ => trivial
  · split
    · exact trivial
    · exact Outcome.bind_defined (expect16_defined _ _) fun _ _ => Outcome.bind_defined (rd8_defined _) fun _ _ => trivial
  · split
    · exact trivial
    · exact Outcome.bind_defined (expect16_defined _ _) fun _ _ => Outcome.bind_defined (rdDate_defined _) fun _ _ => trivial
  · split
    · exact trivial
    · exact Outcome.bind_defined (expect16_defined _ _) fun _ _ => Outcome.bind_defined (rd32_defined _) fun _ _ =>
        Outcome.bind_defined (rd32_defined _) fun _ _ => Outcome.bind_defined (rd8_defined _) fun _ _ => trivial
  · split
    · exact trivial
    · exact Outcome.bind_defined (expect16_defined _ _) fun _ _ => Outcome.bind_defined (rdInt_defined _) fun _ _ =>
        Outcome.bind_defined (rdInt_defined _) fun _ _ => trivial
  all_goals
    exact Outcome.bind_defined (rd16_defined _) fun _ _ => Outcome.bind_defined (rdBytes_defined _ _) fun _ _ => trivial

theorem getUnnamed_defined (data : Bytes) : (getUnnamed data).Defined := by
  fun_induction getUnnamed data with
  | case1 => exact trivial
  | case2 => exact trivial
  | case3 => exact trivial
  | case4 => exact trivial
  | case5 tag rest r1 hm v r2 hd hg ih => rw [hg] at ih; exact ih.elim
  | case6 tag rest r1 hm v r2 hd hg ih => rw [hg] at ih; exact ih.elim
  | case7 => exact trivial
  | case8 tag rest r1 hm hd => have := decodeValue_defined tag r1; rw [hd] at this; exact this.elim
  | case9 tag rest r1 hm hd => have := decodeValue_defined tag r1; rw [hd] at this; exact this.elim

theorem collect_ne_hang (attrs : List Attr) (arr : List Value) (val : Attrs) : collect attrs arr val ≠ .hang := by
  fun_induction collect attrs arr val
  all_goals try assumption
  all_goals try (intro h; cases h; done)
  · rename_i hc hn _; exact absurd (collect_length _ _ _ hc) hn
  · rename_i hc ih; exact absurd hc ih

theorem consumeAttribute_ne_hang (data : Bytes) : consumeAttribute data ≠ .hang := by
  have dn : ∀ {α : Type} {x : Outcome α}, x.Defined → x ≠ .hang := by
    intro α x hx h; rw [h] at hx; exact hx
  unfold consumeAttribute
  refine Outcome.bind_ne_hang (dn (rd8_defined _)) fun _ _ => Outcome.bind_ne_hang (dn (rd16_defined _)) fun _ _ =>
    Outcome.bind_ne_hang (dn (rdBytes_defined _ _)) fun _ _ => Outcome.bind_ne_hang (dn (decodeValue_defined _ _)) fun _ _ =>
    Outcome.bind_ne_hang (dn (getUnnamed_defined _)) fun _ _ => Outcome.bind_ne_hang ?_ fun _ _ => ?_
  · unfold collectIf; split
    · exact collect_ne_hang _ _ _
    · intro h; cases h
  · intro h; cases h

theorem decodeLoop_ne_hang (m : Msg) (cur : UInt8) (acc : Attrs) (data : Bytes) : decodeLoop m cur acc data ≠ .hang := by
  fun_induction decodeLoop m cur acc data
  all_goals try assumption
  all_goals try (intro h; cases h; done)
  · rename_i hc; exact absurd hc (consumeAttribute_ne_hang _)

/-! ## Undefined behaviour -/

/-- A list of tokens that ends within the values of a member: a member name, and from there to the end only values of one tag other
than begin-collection. -/
def Spec.EndsInMember (ts : List Attr) : Prop :=
  ∃ (a : List Attr) (key : Value) (t : UInt8) (v : Value) (b : List Attr),
    ts = a ++ (0x4A, key) :: (t, v) :: b ∧ t ≠ 0x34 ∧ ∀ x ∈ b, x.1 = t

theorem EndsInMember.suffix {s l : List Attr} (h : EndsInMember s) (hs : s <:+ l) : EndsInMember l := by
  obtain ⟨p, rfl⟩ := hs
  obtain ⟨a, key, t, v, b, rfl, h1, h2⟩ := h
  exact ⟨p ++ a, key, t, v, b, by simp, h1, h2⟩

theorem takeSame_none {tag : UInt8} {l : List Attr} (h : takeSame tag l = none) : ∀ x ∈ l, x.1 = tag := by
  induction l with
  | nil => intro x hx; cases hx
  | cons e l ih =>
    obtain ⟨t, v⟩ := e
    rw [takeSame] at h
    split at h
    · rename_i ht
      have : takeSame tag l = none := by simpa using h
      intro x hx
      rcases List.mem_cons.mp hx with rfl | hx
      · exact ht
      · exact ih this x hx
    · cases h

theorem takeSame_suffix {tag : UInt8} {l : List Attr} {vs : List Value} {r : List Attr}
    (h : takeSame tag l = some (vs, r)) : r <:+ l := by
  induction l generalizing vs with
  | nil => cases h
  | cons e l ih =>
    obtain ⟨t, v⟩ := e
    rw [takeSame] at h
    split at h
    · cases hl : takeSame tag l with
      | none => rw [hl] at h; cases h
      | some p =>
        obtain ⟨p1, p2⟩ := p
        rw [hl] at h
        simp only [Option.map_some, Option.some.injEq, Prod.mk.injEq] at h
        obtain ⟨_, rfl⟩ := h
        exact (ih hl).trans (List.suffix_cons ..)
    · cases h; exact List.suffix_refl _

theorem collect_suffix (attrs : List Attr) (arr : List Value) (val : Attrs) {v : Value} {r : List Attr}
    (h : collect attrs arr val = .ok (v, r)) : r <:+ attrs := by
  fun_induction collect attrs arr val generalizing v r <;> try (cases h; done)
  all_goals try (cases h; first | exact List.suffix_refl _ | exact List.suffix_cons .. | exact List.nil_suffix; done)
  · rename_i hc _ ih2 ih1
    exact (ih1 h).trans ((ih2 hc).trans ((List.suffix_cons ..).trans (List.suffix_cons ..)))
  · rename_i ht ih
    exact (ih h).trans ((takeSame_suffix ht).trans ((List.suffix_cons ..).trans (List.suffix_cons ..)))
  · rename_i ih
    exact (ih h).trans ((List.suffix_cons ..).trans (List.suffix_cons ..))

theorem collect_ub (attrs : List Attr) (arr : List Value) (val : Attrs) (h : collect attrs arr val = .ub) : EndsInMember attrs := by
  fun_induction collect attrs arr val <;> try (cases h; done)
  · rename_i hc _ ih2 ih1
    exact EndsInMember.suffix (ih1 h) ((collect_suffix _ _ _ hc).trans ((List.suffix_cons ..).trans (List.suffix_cons ..)))
  · rename_i hc ih
    exact EndsInMember.suffix (ih hc) ((List.suffix_cons ..).trans (List.suffix_cons ..))
  · rename_i key t2 v2 rest2 ht2 ht
    exact ⟨[], _, _, _, _, rfl, ht2, takeSame_none ht⟩
  · rename_i ht ih
    exact EndsInMember.suffix (ih h) ((takeSame_suffix ht).trans ((List.suffix_cons ..).trans (List.suffix_cons ..)))
  · rename_i ih
    exact EndsInMember.suffix (ih h) ((List.suffix_cons ..).trans (List.suffix_cons ..))

/-! Reading leaves a suffix of the data. -/

theorem rd8_suffix {s : Bytes} {x : Nat} {r : Bytes} (h : rd8 s = .ok (x, r)) : r <:+ s := by
  unfold rd8 at h; split at h
  · cases h; exact List.suffix_cons ..
  · cases h

theorem rd16_suffix {s : Bytes} {x : Nat} {r : Bytes} (h : rd16 s = .ok (x, r)) : r <:+ s := by
  unfold rd16 at h; split at h
  · cases h; exact (List.suffix_cons ..).trans (List.suffix_cons ..)
  · cases h

theorem rd32_suffix {s : Bytes} {x : Nat} {r : Bytes} (h : rd32 s = .ok (x, r)) : r <:+ s := by
  unfold rd32 at h; split at h
  · cases h
    exact (List.suffix_cons ..).trans ((List.suffix_cons ..).trans ((List.suffix_cons ..).trans (List.suffix_cons ..)))
  · cases h

theorem rdInt_suffix {s : Bytes} {x : Int} {r : Bytes} (h : rdInt s = .ok (x, r)) : r <:+ s := by
  obtain ⟨⟨y, r'⟩, h1, h2⟩ := Outcome.bind_eq_ok.mp h
  cases h2; exact rd32_suffix h1

theorem expect16_suffix {n : Nat} {s r : Bytes} (h : expect16 n s = .ok r) : r <:+ s := by
  obtain ⟨⟨y, r'⟩, h1, h2⟩ := Outcome.bind_eq_ok.mp h
  simp only at h2
  split at h2
  · cases h2; exact rd16_suffix h1
  · cases h2

theorem rdBytes_suffix {n : Nat} {s x r : Bytes} (h : rdBytes n s = .ok (x, r)) : r <:+ s := by
  obtain ⟨rfl, _⟩ := rdBytes_ok h; exact List.suffix_append ..

theorem matchBytes_suffix {x s r : Bytes} (h : matchBytes x s = some r) : r <:+ s := by
  rw [matchBytes_some h]; exact List.suffix_append ..

theorem rdDate_suffix {s : Bytes} {d : DateTime} {r : Bytes} (h : rdDate s = .ok (d, r)) : r <:+ s := by
  unfold rdDate at h
  obtain ⟨⟨_, r1⟩, h1, h⟩ := Outcome.bind_eq_ok.mp h
  obtain ⟨⟨_, r2⟩, h2, h⟩ := Outcome.bind_eq_ok.mp h
  obtain ⟨⟨_, r3⟩, h3, h⟩ := Outcome.bind_eq_ok.mp h
  obtain ⟨⟨_, r4⟩, h4, h⟩ := Outcome.bind_eq_ok.mp h
  obtain ⟨⟨_, r5⟩, h5, h⟩ := Outcome.bind_eq_ok.mp h
  obtain ⟨⟨_, r6⟩, h6, h⟩ := Outcome.bind_eq_ok.mp h
  obtain ⟨⟨_, r7⟩, h7, h⟩ := Outcome.bind_eq_ok.mp h
  obtain ⟨⟨_, r8⟩, h8, h⟩ := Outcome.bind_eq_ok.mp h
  obtain ⟨⟨_, r9⟩, h9, h⟩ := Outcome.bind_eq_ok.mp h
  obtain ⟨⟨_, r10⟩, h10, h⟩ := Outcome.bind_eq_ok.mp h
  cases h
  exact (rd8_suffix h10).trans <| (rd8_suffix h9).trans <| (rd8_suffix h8).trans <| (rd8_suffix h7).trans <|
    (rd8_suffix h6).trans <| (rd8_suffix h5).trans <| (rd8_suffix h4).trans <| (rd8_suffix h3).trans <|
    (rd8_suffix h2).trans <| rd16_suffix h1

theorem decodeValue_suffix {tag : UInt8} {s : Bytes} {v : Value} {r : Bytes} (h : decodeValue tag s = .ok (v, r)) :
    r <:+ s := by
  unfold decodeValue at h
  split at h
  · cases h
  · split at h
    · rename_i hm; cases h; exact matchBytes_suffix hm
    · obtain ⟨r1, h1, h⟩ := Outcome.bind_eq_ok.mp h
      obtain ⟨⟨_, r2⟩, h2, h⟩ := Outcome.bind_eq_ok.mp h
      cases h; exact (rdInt_suffix h2).trans (expect16_suffix h1)
  · split at h
    · rename_i hm; cases h; exact matchBytes_suffix hm
    · obtain ⟨r1, h1, h⟩ := Outcome.bind_eq_ok.mp h
      obtain ⟨⟨_, r2⟩, h2, h⟩ := Outcome.bind_eq_ok.mp h
      cases h; exact (rd8_suffix h2).trans (expect16_suffix h1)
  · split at h
    · rename_i hm; cases h; exact matchBytes_suffix hm
    · obtain ⟨r1, h1, h⟩ := Outcome.bind_eq_ok.mp h
      obtain ⟨⟨_, r2⟩, h2, h⟩ := Outcome.bind_eq_ok.mp h
      cases h; exact (rdDate_suffix h2).trans (expect16_suffix h1)
  · split at h
    · rename_i hm; cases h; exact matchBytes_suffix hm
    · obtain ⟨r1, h1, h⟩ := Outcome.bind_eq_ok.mp h
      obtain ⟨⟨_, r2⟩, h2, h⟩ := Outcome.bind_eq_ok.mp h
      obtain ⟨⟨_, r3⟩, h3, h⟩ := Outcome.bind_eq_ok.mp h
      obtain ⟨⟨_, r4⟩, h4, h⟩ := Outcome.bind_eq_ok.mp h
      cases h
      exact (rd8_suffix h4).trans <| (rd32_suffix h3).trans <| (rd32_suffix h2).trans <| expect16_suffix h1
  · split at h
    · rename_i hm; cases h; exact matchBytes_suffix hm
    · obtain ⟨r1, h1, h⟩ := Outcome.bind_eq_ok.mp h
      obtain ⟨⟨_, r2⟩, h2, h⟩ := Outcome.bind_eq_ok.mp h
      obtain ⟨⟨_, r3⟩, h3, h⟩ := Outcome.bind_eq_ok.mp h
      cases h
      exact (rdInt_suffix h3).trans <| (rdInt_suffix h2).trans <| expect16_suffix h1
  all_goals
    obtain ⟨⟨_, r1⟩, h1, h⟩ := Outcome.bind_eq_ok.mp h
    obtain ⟨⟨_, r2⟩, h2, h⟩ := Outcome.bind_eq_ok.mp h
    cases h
    exact (rdBytes_suffix h2).trans (rd16_suffix h1)

theorem getUnnamed_suffix (data : Bytes) {l : List Attr} {r : Bytes} (h : getUnnamed data = .ok (l, r)) : r <:+ data := by
  fun_induction getUnnamed data generalizing l r with
  | case1 => cases h; exact List.suffix_refl _
  | case2 => cases h; exact List.suffix_refl _
  | case3 tag rest r1 hm v r2 hd attrs r3 hg ih =>
    cases h
    exact (ih hg).trans <| (decodeValue_suffix hd).trans <| (matchBytes_suffix hm).trans (List.suffix_cons ..)
  | case4 => cases h
  | case5 => cases h
  | case6 => cases h
  | case7 => cases h
  | case8 => cases h
  | case9 => cases h

/-- The tags of unnamed attributes are bytes of the data. -/
theorem getUnnamed_tags (data : Bytes) {l : List Attr} {r : Bytes} (h : getUnnamed data = .ok (l, r)) :
    ∀ t ∈ l, t.1 ∈ data := by
  fun_induction getUnnamed data generalizing l r with
  | case1 => cases h; simp
  | case2 => cases h; simp
  | case3 tag rest r1 hm v r2 hd attrs r3 hg ih =>
    cases h
    intro t ht
    rcases List.mem_cons.mp ht with rfl | ht
    · exact List.mem_cons_self ..
    · exact ((decodeValue_suffix hd).trans ((matchBytes_suffix hm).trans (List.suffix_cons ..))).subset (ih hg t ht)
  | case4 => cases h
  | case5 => cases h
  | case6 => cases h
  | case7 => cases h
  | case8 => cases h
  | case9 => cases h

/-- In the data there is a collection that ends within a member: `data` is split into what is before the unnamed attributes that follow a
begin-collection token, and the rest. -/
def HasOpenMember (data : Bytes) : Prop :=
  ∃ pre rest ts r, data = pre ++ rest ∧ getUnnamed rest = .ok (ts, r) ∧ EndsInMember ts

theorem HasOpenMember.suffix {s l : Bytes} (h : HasOpenMember s) (hs : s <:+ l) : HasOpenMember l := by
  obtain ⟨p, rfl⟩ := hs
  obtain ⟨pre, rest, ts, r, rfl, h1, h2⟩ := h
  exact ⟨p ++ pre, rest, ts, r, by simp, h1, h2⟩

theorem consumeAttribute_suffix {data name : Bytes} {a : Attr} {r : Bytes} (h : consumeAttribute data = .ok (name, a, r)) :
    r <:+ data := by
  unfold consumeAttribute at h
  obtain ⟨⟨_, r1⟩, h1, h⟩ := Outcome.bind_eq_ok.mp h
  obtain ⟨⟨_, r2⟩, h2, h⟩ := Outcome.bind_eq_ok.mp h
  obtain ⟨⟨_, r3⟩, h3, h⟩ := Outcome.bind_eq_ok.mp h
  obtain ⟨⟨_, r4⟩, h4, h⟩ := Outcome.bind_eq_ok.mp h
  obtain ⟨⟨_, r5⟩, h5, h⟩ := Outcome.bind_eq_ok.mp h
  obtain ⟨⟨_, r6⟩, h6, h⟩ := Outcome.bind_eq_ok.mp h
  cases h
  exact (getUnnamed_suffix _ h5).trans <| (decodeValue_suffix h4).trans <| (rdBytes_suffix h3).trans <|
    (rd16_suffix h2).trans <| rd8_suffix h1

theorem consumeAttribute_ub {data : Bytes} (h : consumeAttribute data = .ub) : HasOpenMember data := by
  have dn : ∀ {α : Type} {x : Outcome α}, x.Defined → x ≠ .ub := by
    intro α x hx h; rw [h] at hx; exact hx
  unfold consumeAttribute at h
  rcases Outcome.bind_eq_ub h with h | ⟨⟨x1, r1⟩, h1, h⟩
  · exact absurd h (dn (rd8_defined _))
  rcases Outcome.bind_eq_ub h with h | ⟨⟨x2, r2⟩, h2, h⟩
  · exact absurd h (dn (rd16_defined _))
  rcases Outcome.bind_eq_ub h with h | ⟨⟨x3, r3⟩, h3, h⟩
  · exact absurd h (dn (rdBytes_defined _ _))
  rcases Outcome.bind_eq_ub h with h | ⟨⟨x4, r4⟩, h4, h⟩
  · exact absurd h (dn (decodeValue_defined _ _))
  rcases Outcome.bind_eq_ub h with h | ⟨⟨x5, r5⟩, h5, h⟩
  · exact absurd h (dn (getUnnamed_defined _))
  rcases Outcome.bind_eq_ub h with h | ⟨⟨x6, r6⟩, h6, h⟩
  · have hs : r4 <:+ data := (decodeValue_suffix h4).trans <| (rdBytes_suffix h3).trans <| (rd16_suffix h2).trans <| rd8_suffix h1
    refine HasOpenMember.suffix ⟨[], r4, x5, r5, rfl, h5, ?_⟩ hs
    unfold collectIf at h
    split at h
    · exact collect_ub _ _ _ h
    · cases h
  · cases h

theorem decodeLoop_ub (m : Msg) (cur : UInt8) (acc : Attrs) (data : Bytes) (h : decodeLoop m cur acc data = .ub) :
    HasOpenMember data := by
  fun_induction decodeLoop m cur acc data <;> try (cases h; done)
  · rename_i ih; exact (ih h).suffix (List.suffix_cons ..)
  · rename_i hc ih; exact (ih h).suffix (consumeAttribute_suffix hc)
  · rename_i hc; exact consumeAttribute_ub hc

theorem decodeMsg_ub {data : Bytes} (h : decodeMsg data = .ub) : HasOpenMember data := by
  have dn : ∀ {α : Type} {x : Outcome α}, x.Defined → x ≠ .ub := by
    intro α x hx h; rw [h] at hx; exact hx
  unfold decodeMsg at h
  rcases Outcome.bind_eq_ub h with h | ⟨⟨x1, r1⟩, h1, h⟩
  · exact absurd h (dn (rd8_defined _))
  rcases Outcome.bind_eq_ub h with h | ⟨⟨x2, r2⟩, h2, h⟩
  · exact absurd h (dn (rd8_defined _))
  rcases Outcome.bind_eq_ub h with h | ⟨⟨x3, r3⟩, h3, h⟩
  · exact absurd h (dn (rd16_defined _))
  rcases Outcome.bind_eq_ub h with h | ⟨⟨x4, r4⟩, h4, h⟩
  · exact absurd h (dn (rd32_defined _))
  exact (decodeLoop_ub _ _ _ _ h).suffix <| (rd32_suffix h4).trans <| (rd16_suffix h3).trans <| (rd8_suffix h2).trans <| rd8_suffix h1

theorem decodeMsg_ne_hang (data : Bytes) : decodeMsg data ≠ .hang := by
  have dn : ∀ {α : Type} {x : Outcome α}, x.Defined → x ≠ .hang := by
    intro α x hx h; rw [h] at hx; exact hx
  unfold decodeMsg
  exact Outcome.bind_ne_hang (dn (rd8_defined _)) fun _ _ => Outcome.bind_ne_hang (dn (rd8_defined _)) fun _ _ =>
    Outcome.bind_ne_hang (dn (rd16_defined _)) fun _ _ => Outcome.bind_ne_hang (dn (rd32_defined _)) fun _ _ =>
    decodeLoop_ne_hang _ _ _ _

end Verif.Ipp
