import Verif.Discovery.QueryProps

/-! # Queries longer than 4096 bytes -/

namespace Verif.Discovery

open Spec
open Verif.Text (joinString)

/-- The labels at `pos`, up to an empty one. -/
def plainN (msg : Bytes) : Nat → Nat → Option (List Bytes × Nat)
  | 0, _ => none
  | fuel + 1, pos =>
    match msg.drop pos with
    | [] => none
    | b :: r =>
      if b.toNat = 0 then some ([], pos + 1)
      else if b.toNat ≤ 63 ∧ b.toNat ≤ r.length then
        (plainN msg fuel (pos + 1 + b.toNat)).map (fun p => (r.take b.toNat :: p.1, p.2))
      else none

theorem plainN_sound (msg : Bytes) : ∀ (fuel pos : Nat) {ls : List Bytes} {stop : Nat}, plainN msg fuel pos = some (ls, stop) →
    NameAt msg pos ls stop := by
  intro fuel
  induction fuel with
  | zero => intro pos ls stop h; cases h
  | succ fuel ih =>
    intro pos ls stop h
    unfold plainN at h
    split at h
    · cases h
    · rename_i b r hd
      have hat : ∀ n, n ≤ r.length → At msg pos (b :: r.take n) := by
        intro n hn
        refine ⟨msg.take pos, r.drop n, ?_, ?_⟩
        · have := List.take_append_drop pos msg
          rw [hd] at this
          rw [List.append_assoc, List.cons_append, List.take_append_drop, this]
        · have := congrArg List.length hd
          simp at this ⊢; omega
      split at h
      · rename_i hb
        simp only [Option.some.injEq, Prod.mk.injEq] at h
        obtain ⟨rfl, rfl⟩ := h
        have : b = 0 := UInt8.toNat_inj.1 hb
        subst this
        exact .root (by simpa using hat 0 (Nat.zero_le _))
      · rename_i hb
        split at h
        · rename_i hc
          cases hr : plainN msg fuel (pos + 1 + b.toNat) with
          | none => rw [hr] at h; cases h
          | some p =>
            rw [hr] at h
            simp only [Option.map_some, Option.some.injEq, Prod.mk.injEq] at h
            obtain ⟨rfl, rfl⟩ := h
            have hl : (r.take b.toNat).length = b.toNat := by simp; omega
            refine .label (by omega) (by omega) ?_ ?_
            · rw [hl]; simpa using hat b.toNat hc.2
            · rw [hl]; exact ih _ hr
        · cases h

/-- The position behind `k` questions. -/
def skipPlain (msg : Bytes) (fuel : Nat) : Nat → Nat → Option Nat
  | 0, pos => some pos
  | k + 1, pos =>
    match plainN msg fuel pos with
    | some (_, stop) => skipPlain msg fuel k (stop + 4)
    | none => none

theorem skipPlain_sound {msg : Bytes} {fuel qtype : Nat} : ∀ {k pos p : Nat} {names : List (List Bytes)}, skipPlain msg fuel k pos = some p →
    k ≤ names.length → Questions msg qtype pos names → Questions msg qtype p (names.drop k) := by
  intro k
  induction k with
  | zero => intro pos p names h _ hq; cases h; exact hq
  | succ k ih =>
    intro pos p names h hk hq
    unfold skipPlain at h
    split at h
    · rename_i ls stop hp
      cases hq with
      | nil => simp at hk
      | cons hn _ hq =>
        obtain ⟨rfl, rfl⟩ := (plainN_sound msg _ _ hp).unique hn
        exact ih h (by simpa using hk) hq
    · cases h

/-- Seventeen names of four labels with 62 bytes each; the last one is asked for twice. -/
def manyNames : List (List Bytes) :=
  (List.range 17).map (fun i => List.replicate 4 (List.replicate 62 (UInt8.ofNat (97 + i)))) ++ [List.replicate 4 (List.replicate 62 113)]

/-- A reference to a place where no name stands. -/
theorem no_question {msg : Bytes} {pos qtype : Nat} {name : List Bytes} (hne : name ≠ []) (hd : msg.drop pos = [192, 28, 0, 1, 0, 1])
    (hd' : (msg.drop 28).head? = some 97) : ¬ Questions msg qtype pos [name] := by
  intro hlast
  cases hlast with
  | cons hn _ _ =>
    cases hn with
    | root => exact hne rfl
    | label h1 h2 h3 _ =>
      obtain ⟨b, hb⟩ := at_drop h3
      rw [hd] at hb
      simp only [List.cons_append, List.cons.injEq] at hb
      have := congrArg UInt8.toNat hb.1
      rw [ofNat_small h1 h2] at this
      simp at this; omega
    | @reference _ ref _ _ h1 h2 h3 h4 =>
      obtain ⟨b, hb⟩ := at_drop h3
      rw [hd] at hb
      have e1 : rd16 [192, 28, 0, 1, 0, 1] = rd16 (be16 (49152 + ref) ++ b) := by rw [hb]
      rw [rd16_be16] at e1
      simp [rd16] at e1
      have : ref = 28 := by omega
      subst this
      have bad : ∀ {ls stop}, NameAt msg 28 ls stop → False := by
        intro ls stop hn
        cases hn with
        | root h =>
          obtain ⟨b, hb⟩ := at_drop h
          rw [hb] at hd'; simp at hd'
        | label h1 h2 h _ =>
          obtain ⟨b, hb⟩ := at_drop h
          rw [hb] at hd'; simp at hd'
          have := congrArg UInt8.toNat hd'
          rw [ofNat_small h1 h2] at this
          simp at this; omega
        | reference h1 _ h _ =>
          obtain ⟨b, hb⟩ := at_drop h
          obtain ⟨x, r, hx, hx3⟩ := be16_high h1
          rw [hb, hx] at hd'; simp at hd'
          rw [hd'] at hx3; simp at hx3
      exact bad h4

theorem many_labels : ∀ m ∈ manyNames, m ≠ [] ∧ ∀ l ∈ m, (1 ≤ l.length ∧ l.length ≤ 63) ∧ 46 ∉ l := by decide +kernel

/-- What `putName` appends to a query of `n` bytes -/
def namePart : List Bytes → Nat → List (Bytes × Nat) → Bytes × List (Bytes × Nat)
  | [], _, sp => (be8 0, sp)
  | part :: parts, n, sp =>
    match position sp (joinString [46] (part :: parts)) with
    | some p => (be16 (49152 + p % 4096), sp)
    | none =>
      let r := namePart parts (n + (1 + part.length)) (sp ++ [(joinString [46] (part :: parts), n % 65536)])
      (be8 part.length ++ (part ++ r.1), r.2)

theorem putName_part (parts : List Bytes) : ∀ (q : Bytes) (sp : List (Bytes × Nat)), putName parts q sp = (q ++ (namePart parts q.length sp).1, (namePart parts q.length sp).2) := by
  induction parts with
  | nil => intro q sp; rfl
  | cons part parts ih =>
    intro q sp
    unfold putName namePart
    cases position sp (joinString [46] (part :: parts)) with
    | some p => rfl
    | none =>
      simp only
      rw [ih]
      have : (q ++ be8 part.length ++ part).length = q.length + (1 + part.length) := by simp [be8]; omega
      rw [this]
      simp only [List.append_assoc]

/-- What `putQuestions` appends -/
def questionsPart (qtype : Nat) : List (List Bytes) → Nat → List (Bytes × Nat) → Bytes
  | [], _, _ => []
  | name :: names, n, sp =>
    let r := namePart name n sp
    r.1 ++ (be16 qtype ++ (be16 1 ++ questionsPart qtype names (n + (r.1.length + 4)) r.2))

theorem putQuestions_part (qtype : Nat) (names : List (List Bytes)) (h : ∀ n ∈ names, Labels n ∧ NoDots n) :
    ∀ (q : Bytes) (sp : List (Bytes × Nat)), putQuestions qtype (names.map dotted) q sp = q ++ questionsPart qtype names q.length sp := by
  induction names with
  | nil => intro q sp; simp [putQuestions, questionsPart]
  | cons name names ih =>
    intro q sp
    have hn := h name List.mem_cons_self
    unfold questionsPart
    rw [List.map_cons, putQuestions, split_dotted hn.1 hn.2, putName_part, ih fun n hn => h n (List.mem_cons_of_mem _ hn)]
    have : (q ++ (namePart name q.length sp).1 ++ be16 qtype ++ be16 1).length = q.length + ((namePart name q.length sp).1.length + 4) := by simp [be16]
    rw [this]
    simp only [List.append_assoc]

theorem many_named : ∀ n ∈ manyNames, Labels n ∧ NoDots n := fun n hn =>
  ⟨⟨(many_labels n hn).1, fun l hl => ((many_labels n hn).2 l hl).1⟩, fun l hl => ((many_labels n hn).2 l hl).2⟩

/-- The query -/
def manyQuery : Bytes := [0, 0, 0, 0, 0, 18, 0, 0, 0, 0, 0, 0] ++ questionsPart 1 manyNames 12 []

theorem many_query : makeQuery 0 1 (manyNames.map dotted) = manyQuery := by
  unfold makeQuery
  rw [putQuestions_part 1 manyNames many_named]
  rfl

theorem many_facts : skipPlain manyQuery 6 17 12 = some 4381 ∧ manyQuery.drop 4381 = [192, 28, 0, 1, 0, 1] ∧ (manyQuery.drop 28).head? = some 97 ∧
    17 ≤ manyNames.length ∧ manyNames.drop 17 = [List.replicate 4 (List.replicate 62 113)] := by decide +kernel

/-- **C42.** For queries of more than 4096 bytes the claim is false: references are cut off to 12 bits (line 152 of ippdiscovery.cpp; DNS has 14), so that
a reference to a name behind that position points into something else. -/
theorem C42_long_false : ¬ ∀ (id qtype : Nat) (names : List (List Bytes)), (∀ n ∈ names, Labels n ∧ NoDots n) →
    QueryFor (makeQuery id qtype (names.map dotted)) id qtype names := by
  intro h
  have hq := (h 0 1 manyNames many_named).2.2
  rw [many_query] at hq
  obtain ⟨h1, h2, h3, h4, h5⟩ := many_facts
  have hlast := skipPlain_sound h1 h4 hq
  rw [h5] at hlast
  exact no_question (by simp) h2 h3 hlast

end Verif.Discovery
