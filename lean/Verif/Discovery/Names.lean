import Verif.Discovery.Model

/-! # Decoding of names ends -/

namespace Verif.Discovery

theorem nodup_length_le {n : Nat} : ∀ {l : List Nat}, l.Nodup → (∀ x ∈ l, x < n) → l.length ≤ n := by
  induction n with
  | zero =>
    intro l _ h
    cases l with
    | nil => exact Nat.le_refl _
    | cons x l => exact absurd (h x (by simp)) (Nat.not_lt_zero _)
  | succ n ih =>
    intro l hn h
    have h1 := ih (hn.erase n) (fun x hx => by
      have := (List.Nodup.mem_erase_iff hn).1 hx
      have := h x this.2
      omega)
    rw [List.length_erase] at h1
    split at h1 <;> omega

theorem get16_ok {msg : Bytes} {pos v p : Nat} (h : get16 msg pos = .ok (v, p)) : p = pos + 2 ∧ pos + 2 ≤ msg.length := by
  unfold get16 at h
  simp only [Outcome.bind_eq_ok] at h
  obtain ⟨⟨v', r⟩, h1, h2⟩ := h
  simp only [Outcome.pure_eq, Outcome.ok.injEq, Prod.mk.injEq] at h2
  refine ⟨h2.2.symm, ?_⟩
  unfold rd16 at h1
  split at h1
  · rename_i a b r' hd
    have := congrArg List.length hd
    simp at this; omega
  · cases h1

theorem getLabel_ok {msg l : Bytes} {pos p : Nat} (h : getLabel msg pos = .ok (l, p)) : pos < p ∧ p ≤ msg.length := by
  unfold getLabel get8 at h
  simp only [Outcome.bind_eq_ok] at h
  obtain ⟨⟨n, q⟩, ⟨⟨n', r⟩, h1, h2⟩, ⟨s, r'⟩, h3, h4⟩ := h
  simp only [Outcome.pure_eq, Outcome.ok.injEq, Prod.mk.injEq] at h2 h4
  obtain ⟨rfl, rfl⟩ := h2
  obtain ⟨rfl, rfl⟩ := h4
  have := rdBytes_ok h3
  have hl : n' ≤ (msg.drop (pos + 1)).length := by rw [this.1, List.length_append, this.2]; omega
  unfold rd8 at h1
  split at h1
  · rename_i a r' hd
    have := congrArg List.length hd
    simp at this hl
    omega
  · cases h1

theorem rd8_drop {msg : Bytes} {pos : Nat} {b : UInt8} {r : Bytes} (h : msg.drop pos = b :: r) :
    rd8 (msg.drop pos) = .ok (b.toNat, msg.drop (pos + 1)) := by
  have : msg.drop (pos + 1) = r := by
    rw [← List.drop_drop, h]; rfl
  rw [h, this]; rfl

theorem get16_total (msg : Bytes) (pos : Nat) : (∃ v, get16 msg pos = .ok (v, pos + 2)) ∨ get16 msg pos = .throws .outOfRange := by
  unfold get16 rd16
  split
  · left; exact ⟨_, rfl⟩
  · right; rfl

theorem getLabel_total (msg : Bytes) (pos : Nat) : (∃ l p, getLabel msg pos = .ok (l, p)) ∨ getLabel msg pos = .throws .outOfRange := by
  unfold getLabel get8 rd8 rdBytes
  split
  · simp only [Outcome.bind_ok, Outcome.pure_eq]
    split
    · left; exact ⟨_, _, rfl⟩
    · right; rfl
  · right; rfl

/-- The function runs as the rules say, when the number of rounds is enough. -/
theorem getAddrN_runs (msg : Bytes) : ∀ (fuel pos : Nat) (seen : List Nat), seen.Nodup → (∀ x ∈ seen, x < 4096) →
    (4096 - seen.length) * (msg.length + 2) + (msg.length + 1 - pos) < fuel → GetAddr msg pos seen (getAddrN msg fuel pos seen) := by
  intro fuel
  induction fuel with
  | zero => intro pos seen _ _ h; omega
  | succ fuel ih =>
    intro pos seen hn hlt hf
    unfold getAddrN
    cases hd : msg.drop pos with
    | nil => exact .short hd
    | cons b r =>
      have h8 := rd8_drop hd
      have hpos : pos < msg.length := by
        have := congrArg List.length hd
        simp at this; omega
      simp only
      split
      · rename_i hb
        rw [hb] at h8; exact .root h8
      · rename_i hb
        split
        · rename_i hc
          rcases get16_total msg pos with ⟨ref, h⟩ | h
          · rw [h]; simp only
            split
            · rename_i hs; exact .circular h8 hc h hs
            · rename_i hs
              have hn' : (ref % 4096 :: seen).Nodup := List.nodup_cons.2 ⟨hs, hn⟩
              have hlt' : ∀ x ∈ ref % 4096 :: seen, x < 4096 := by
                intro x hx
                rcases List.mem_cons.1 hx with rfl | hx
                · exact Nat.mod_lt _ (by decide)
                · exact hlt x hx
              have hlen := nodup_length_le hn' hlt'
              rw [List.length_cons] at hlen
              have key := ih (ref % 4096) _ hn' hlt' (by
                rw [List.length_cons]
                have : 4096 - seen.length = (4096 - (seen.length + 1)) + 1 := by omega
                rw [this, Nat.add_mul] at hf
                omega)
              generalize getAddrN msg fuel (ref % 4096) (ref % 4096 :: seen) = o at key
              cases o with
              | ok a => exact .reference h8 hc h hs key
              | throws e => exact .referenceThrows h8 hc h hs key
              | ub => cases key
              | hang => cases key
          · rw [h]; exact .half h8 hc h
        · rename_i hc
          rcases getLabel_total msg pos with ⟨l, p, h⟩ | h
          · rw [h]; simp only
            have hp := getLabel_ok h
            have key := ih p seen hn hlt (by omega)
            generalize getAddrN msg fuel p seen = o at key
            cases o with
            | ok a => exact .label h8 hb hc h key
            | throws e => exact .restThrows h8 hb hc h key
            | ub => cases key
            | hang => cases key
          · rw [h]; exact .labelThrows h8 hb hc h

theorem getAddr_runs (msg : Bytes) (pos : Nat) : GetAddr msg pos [] (getAddr msg pos) := by
  refine getAddrN_runs msg _ pos [] List.nodup_nil nofun ?_
  rw [List.length_nil, Nat.sub_zero]
  omega

theorem rd8_cons {msg : Bytes} {pos b : Nat} {r : Bytes} (h : rd8 (msg.drop pos) = .ok (b, r)) : ∃ x : UInt8, msg.drop pos = x :: r ∧ x.toNat = b := by
  unfold rd8 at h
  split at h
  · rename_i a r' hd
    simp only [Outcome.ok.injEq, Prod.mk.injEq] at h
    exact ⟨a, by rw [hd, h.2], h.1⟩
  · cases h

/-- The rules give what the function gives with enough rounds. -/
theorem getAddr_fuel {msg : Bytes} {pos : Nat} {seen : List Nat} {o : Outcome (List Bytes × Nat)} (h : GetAddr msg pos seen o) :
    ∃ n, ∀ fuel, n ≤ fuel → getAddrN msg fuel pos seen = o := by
  induction h with
  | @root pos seen h8 =>
    obtain ⟨x, hd, hx⟩ := rd8_cons h8
    refine ⟨1, fun fuel hf => ?_⟩
    obtain ⟨f, rfl⟩ : ∃ f, fuel = f + 1 := ⟨fuel - 1, by omega⟩
    unfold getAddrN; simp [hd, hx]
  | @short pos seen hd =>
    refine ⟨1, fun fuel hf => ?_⟩
    obtain ⟨f, rfl⟩ : ∃ f, fuel = f + 1 := ⟨fuel - 1, by omega⟩
    unfold getAddrN; simp [hd]
  | @half pos b seen h8 hc h =>
    obtain ⟨x, hd, hx⟩ := rd8_cons h8
    refine ⟨1, fun fuel hf => ?_⟩
    obtain ⟨f, rfl⟩ : ∃ f, fuel = f + 1 := ⟨fuel - 1, by omega⟩
    have : b ≠ 0 := by rintro rfl; simp at hc
    unfold getAddrN; simp [hd, hx, this, hc, h]
  | @circular pos b ref p seen h8 hc h hs =>
    obtain ⟨x, hd, hx⟩ := rd8_cons h8
    refine ⟨1, fun fuel hf => ?_⟩
    obtain ⟨f, rfl⟩ : ∃ f, fuel = f + 1 := ⟨fuel - 1, by omega⟩
    have : b ≠ 0 := by rintro rfl; simp at hc
    unfold getAddrN; simp [hd, hx, this, hc, h, hs]
  | @reference pos b ref p p' seen addr h8 hc h hs _ ih =>
    obtain ⟨x, hd, hx⟩ := rd8_cons h8
    obtain ⟨n, ih⟩ := ih
    refine ⟨n + 1, fun fuel hf => ?_⟩
    obtain ⟨f, rfl⟩ : ∃ f, fuel = f + 1 := ⟨fuel - 1, by omega⟩
    have : b ≠ 0 := by rintro rfl; simp at hc
    unfold getAddrN; simp [hd, hx, this, hc, h, hs, ih f (by omega)]
  | @referenceThrows pos b ref p seen e h8 hc h hs _ ih =>
    obtain ⟨x, hd, hx⟩ := rd8_cons h8
    obtain ⟨n, ih⟩ := ih
    refine ⟨n + 1, fun fuel hf => ?_⟩
    obtain ⟨f, rfl⟩ : ∃ f, fuel = f + 1 := ⟨fuel - 1, by omega⟩
    have : b ≠ 0 := by rintro rfl; simp at hc
    unfold getAddrN; simp [hd, hx, this, hc, h, hs, ih f (by omega)]
  | @label pos b p seen l addr p' h8 hb hc h _ ih =>
    obtain ⟨x, hd, hx⟩ := rd8_cons h8
    obtain ⟨n, ih⟩ := ih
    refine ⟨n + 1, fun fuel hf => ?_⟩
    obtain ⟨f, rfl⟩ : ∃ f, fuel = f + 1 := ⟨fuel - 1, by omega⟩
    unfold getAddrN; simp [hd, hx, hb, hc, h, ih f (by omega)]
  | @labelThrows pos b seen e h8 hb hc h =>
    obtain ⟨x, hd, hx⟩ := rd8_cons h8
    refine ⟨1, fun fuel hf => ?_⟩
    obtain ⟨f, rfl⟩ : ∃ f, fuel = f + 1 := ⟨fuel - 1, by omega⟩
    unfold getAddrN; simp [hd, hx, hb, hc, h]
  | @restThrows pos b p seen l e h8 hb hc h _ ih =>
    obtain ⟨x, hd, hx⟩ := rd8_cons h8
    obtain ⟨n, ih⟩ := ih
    refine ⟨n + 1, fun fuel hf => ?_⟩
    obtain ⟨f, rfl⟩ : ∃ f, fuel = f + 1 := ⟨fuel - 1, by omega⟩
    unfold getAddrN; simp [hd, hx, hb, hc, h, ih f (by omega)]

theorem getAddr_unique {msg : Bytes} {pos : Nat} {seen : List Nat} {o o' : Outcome (List Bytes × Nat)} (h : GetAddr msg pos seen o)
    (h' : GetAddr msg pos seen o') : o = o' := by
  obtain ⟨n, h⟩ := getAddr_fuel h
  obtain ⟨m, h'⟩ := getAddr_fuel h'
  rw [← h (n + m) (by omega), ← h' (n + m) (by omega)]

theorem getAddr_eq {msg : Bytes} {pos : Nat} {o : Outcome (List Bytes × Nat)} (h : GetAddr msg pos [] o) : getAddr msg pos = o :=
  getAddr_unique (getAddr_runs msg pos) h

/-- **C41.** Decoding a name ends on every message, from every position, with a name or an exception (`out_of_range` or `logic_error`). -/
theorem C41_ends (msg : Bytes) (pos : Nat) : ∃ o, GetAddr msg pos [] o ∧ (∀ o', GetAddr msg pos [] o' → o' = o) ∧
    ((∃ labels p, o = .ok (labels, p)) ∨ o = .throws .outOfRange ∨ o = .throws .logicError) := by
  refine ⟨_, getAddr_runs msg pos, fun o' h => (getAddr_eq h).symm, ?_⟩
  have key : ∀ {pos seen o}, GetAddr msg pos seen o → (∃ labels p, o = .ok (labels, p)) ∨ o = .throws .outOfRange ∨ o = .throws .logicError := by
    intro pos seen o h
    induction h with
    | root => exact .inl ⟨_, _, rfl⟩
    | short => exact .inr (.inl rfl)
    | half => exact .inr (.inl rfl)
    | circular => exact .inr (.inr rfl)
    | reference => exact .inl ⟨_, _, rfl⟩
    | referenceThrows _ _ _ _ _ ih => exact ih
    | label => exact .inl ⟨_, _, rfl⟩
    | @labelThrows pos b seen e h8 hb hc h =>
      rcases getLabel_total msg pos with ⟨_, _, h'⟩ | h'
      · rw [h'] at h; cases h
      · rw [h'] at h; cases h; exact .inr (.inl rfl)
    | restThrows _ _ _ _ _ ih => exact ih
  exact key (getAddr_runs msg pos)

/-- A name, a reference that leads back to itself (the one of the repository's tests), and the empty message. -/
example : getAddr [2, 116, 114, 2, 111, 108, 0] 0 = .ok ([[116, 114], [111, 108]], 7) ∧
    getAddr [2, 116, 114, 2, 111, 108, 192, 3] 0 = .throws .logicError ∧ getAddr [] 0 = .throws .outOfRange := by decide +kernel

end Verif.Discovery
