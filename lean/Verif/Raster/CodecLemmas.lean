import Verif.Raster.Codec

/-! # Helper lemmas on the line codec -/

namespace Verif.Raster

theorem chunksOf_flatten (c : Nat) (hc : 0 < c) (cs : List Bytes) (h : ∀ x ∈ cs, x.length = c) :
    chunksOf c cs.flatten = .ok cs := by
  induction cs with
  | nil => simp [chunksOf]
  | cons x xs ih =>
    have hx : x.length = c := h x (by simp)
    have hne : (x :: xs).flatten ≠ [] := by
      intro hc'; simp at hc'; rw [hc'.1] at hx; simp at hx; omega
    rw [chunksOf, if_neg hne, if_neg (by omega), if_neg (by simp [hx])]
    have hd : (x :: xs).flatten.drop c = xs.flatten := by simp [← hx]
    have ht : (x :: xs).flatten.take c = x := by simp [← hx]
    rw [hd, ht, ih (fun y hy => h y (by simp [hy]))]
    rfl

theorem exists_chunks (c n : Nat) (raw : Bytes) (h : raw.length = n * c) :
    ∃ cs : List Bytes, cs.flatten = raw ∧ cs.length = n ∧ ∀ x ∈ cs, x.length = c := by
  induction n generalizing raw with
  | zero => exact ⟨[], by simp at h; simp [h], rfl, by simp⟩
  | succ n ih =>
    have hl : (raw.drop c).length = n * c := by
      rw [List.length_drop, h, Nat.succ_mul]; omega
    obtain ⟨cs, h1, h2, h3⟩ := ih _ hl
    refine ⟨raw.take c :: cs, by simp [h1], by simp [h2], ?_⟩
    intro x hx
    simp only [List.mem_cons] at hx
    rcases hx with rfl | hx
    · rw [List.length_take, h, Nat.succ_mul]; omega
    · exact h3 x hx

theorem scanRepeat_spec (cur : Bytes) (xs : List Bytes) (k : Nat) (hk : k < 127) :
    ∃ m, (scanRepeat cur xs k).1 = k + m ∧ xs = List.replicate m cur ++ (scanRepeat cur xs k).2 ∧
      k + m ≤ 127 := by
  induction xs generalizing k with
  | nil => exact ⟨0, by simp [scanRepeat]; omega⟩
  | cons x xs ih =>
    simp only [scanRepeat]
    split
    · rename_i hx
      subst hx
      split
      · exact ⟨1, by simp; omega⟩
      · obtain ⟨m, h1, h2, h3⟩ := ih (k + 1) (by omega)
        refine ⟨m + 1, by omega, ?_, by omega⟩
        rw [List.replicate_succ, List.cons_append, ← h2]
    · exact ⟨0, by simp; omega⟩

/-- What the literal scan of `compress_line` ends with: it covers a prefix, and when chunks are left
either it hit the limit of 127 or the last chunk covered equals the next one. -/
theorem scanVerbatim_spec (xs : List Bytes) (v : Nat) (hx : xs ≠ []) (hv : v < 126) :
    ∃ m, (scanVerbatim xs v).1 = v + m ∧ 1 ≤ m ∧ m ≤ xs.length ∧ v + m ≤ 127 ∧
      (scanVerbatim xs v).2 = xs.drop m ∧
      (v + m < 127 → ∀ y ys, xs.drop m = y :: ys → xs.drop (m - 1) = y :: y :: ys) := by
  fun_induction scanVerbatim xs v with
  | case1 => contradiction
  | case2 x xs v h => exact ⟨1, by simp; omega⟩
  | case3 x v h => exact ⟨1, by simp; omega⟩
  | case4 x v h y ys hne ih =>
    by_cases hv2 : v + 1 < 126
    · obtain ⟨m, h1, h2, h3, h4, h5, h6⟩ := ih (by simp) hv2
      refine ⟨m + 1, by omega, by omega, by simp at h3 ⊢; omega, by omega, by rw [h5]; simp, ?_⟩
      intro hlt z zs hz
      have := h6 (by omega) z zs (by simpa using hz)
      obtain ⟨m', rfl⟩ : ∃ m', m = m' + 1 := ⟨m - 1, by omega⟩
      simpa using this
    · have hv3 : v + 1 = 126 := by omega
      have : scanVerbatim (y :: ys) (v + 1) = (v + 1 + 1, ys) := by
        unfold scanVerbatim; rw [if_pos (by omega)]
      rw [this]
      exact ⟨2, by simp; omega⟩
  | case5 x v h y ys hne =>
    refine ⟨1, by simp, by simp, by simp, by omega, by simp, ?_⟩
    intro hlt z zs hz
    simp at hz hne
    simp [hz, ← hne]

theorem verbatimCount_spec (rest : List Bytes) (hx : rest ≠ []) :
    1 ≤ verbatimCount rest ∧ verbatimCount rest ≤ 127 ∧ verbatimCount rest ≤ rest.length + 1 ∧
    (verbatimCount rest = rest.length + 1 ∨ verbatimCount rest = 126 ∨
      ∃ y ys, rest.drop (verbatimCount rest - 1) = y :: y :: ys) := by
  obtain ⟨m, h1, h2, h3, h4, h5, h6⟩ := scanVerbatim_spec rest 1 hx (by omega)
  simp only [verbatimCount]
  by_cases hl : (scanVerbatim rest 1).2 = []
  · rw [if_pos hl, h1]
    rw [h5] at hl
    have : rest.length ≤ m := by simpa using hl
    refine ⟨by omega, by omega, by omega, Or.inl (by omega)⟩
  · rw [if_neg hl, h1]
    refine ⟨by omega, by omega, by omega, Or.inr ?_⟩
    by_cases hm : 1 + m = 127
    · left; omega
    · right
      rw [h5] at hl
      obtain ⟨y, ys, hy⟩ := List.exists_cons_of_ne_nil hl
      exact ⟨y, ys, by have := h6 (by omega) y ys hy; simpa using this⟩

theorem decodeLine_done (c bw : Nat) (urf : Bool) (line s : Bytes) (h : line.length = bw) :
    decodeLine c bw urf line s = .ok (line, s) := by
  unfold decodeLine; rw [if_pos h]

theorem decodeLine_repeat (c bw : Nat) (urf : Bool) (line cur s : Bytes) (n : Nat) (hn : n < 128)
    (hl : line.length ≠ bw) (hc : cur.length = c) :
    decodeLine c bw urf line (UInt8.ofNat n :: (cur ++ s)) =
      decodeLine c bw urf (line ++ (List.replicate (n + 1) cur).flatten) s := by
  have hnt : (UInt8.ofNat n).toNat = n := by simp; omega
  conv => lhs; unfold decodeLine
  rw [if_neg hl]
  have h1 : ¬(urf = true ∧ UInt8.ofNat n = 128) := by
    rintro ⟨_, h⟩
    have := congrArg UInt8.toNat h
    rw [hnt] at this; simp at this; omega
  have h2 : UInt8.ofNat n < 128 := by rw [UInt8.lt_iff_toNat_lt, hnt]; simpa using hn
  simp only [if_neg h1, if_pos h2, hnt]
  have h3 : rdBytes c (cur ++ s) = .ok (cur, s) := rdBytes_append _ _ _ hc
  split <;> rename_i h4 <;> rw [h3] at h4 <;> cases h4
  rfl

theorem decodeLine_verbatim (c bw : Nat) (urf : Bool) (line x s : Bytes) (v : Nat) (hv : 2 ≤ v)
    (hv2 : v ≤ 128) (hl : line.length ≠ bw) (hx : x.length = v * c) :
    decodeLine c bw urf line (UInt8.ofNat (257 - v) :: (x ++ s)) = decodeLine c bw urf (line ++ x) s := by
  have hnt : (UInt8.ofNat (257 - v)).toNat = 257 - v := by simp; omega
  conv => lhs; unfold decodeLine
  rw [if_neg hl]
  have h1 : ¬(urf = true ∧ UInt8.ofNat (257 - v) = 128) := by
    rintro ⟨_, h⟩
    have := congrArg UInt8.toNat h
    rw [hnt] at this; simp at this; omega
  have h2 : ¬ UInt8.ofNat (257 - v) < 128 := by
    rw [UInt8.lt_iff_toNat_lt, hnt]; simp; omega
  simp only [if_neg h1, if_neg h2, hnt]
  have h3 : rdBytes ((257 - (UInt8.ofNat (257 - v)).toNat) * c) (x ++ s) = .ok (x, s) := by
    apply rdBytes_append
    rw [hx, hnt]; congr 1; omega
  split <;> rename_i h4 <;> rw [h3] at h4 <;> cases h4
  rfl

theorem flatten_length_const (c : Nat) (cs : List Bytes) (h : ∀ x ∈ cs, x.length = c) :
    cs.flatten.length = cs.length * c := by
  induction cs with
  | nil => simp
  | cons x xs ih =>
    simp only [List.flatten_cons, List.length_append, List.length_cons]
    rw [ih (fun y hy => h y (by simp [hy])), h x (by simp), Nat.succ_mul]; omega

/-- Decoding an encoded line gives the line and leaves the rest of the stream. -/
theorem decodeLine_compressChunks (c : Nat) (hc : 0 < c) (urf : Bool) (cs : List Bytes) :
    ∀ (line rest : Bytes) (bw : Nat), (∀ x ∈ cs, x.length = c) → bw = line.length + cs.length * c →
    decodeLine c bw urf line (compressChunks cs ++ rest) = .ok (line ++ cs.flatten, rest) := by
  fun_induction compressChunks cs with
  | case1 =>
    intro line rest bw h hbw
    simp at hbw
    simpa using decodeLine_done c bw urf line rest hbw.symm
  | case2 cur rst h r ih =>
    intro line rest bw hlen hbw
    have hcur : cur.length = c := hlen cur (by simp)
    have hpos : 0 < (rst.length + 1) * c := Nat.mul_pos (by omega) hc
    obtain ⟨m, h1, h2, h3⟩ := scanRepeat_spec cur rst 0 (by omega)
    change r.1 = _ at h1
    change rst = _ ++ r.2 at h2
    simp only [List.length_cons] at hbw
    simp only [List.cons_append, List.append_assoc]
    rw [decodeLine_repeat c bw urf line cur _ r.1 (by omega) (by omega) hcur]
    rw [ih _ rest bw]
    · conv => rhs; rw [h2]
      have : r.1 = m := by omega
      simp [this, List.replicate_succ]
    · intro x hx; exact hlen x (by rw [h2]; simp [hx])
    · have hl : rst.length = m + r.2.length := by rw [h2]; simp
      rw [hbw, hl]
      have : r.1 = m := by omega
      simp [this, hcur]
      simp only [Nat.add_mul]
      omega
  | case3 cur rst h v hv ih =>
    intro line rest bw hlen hbw
    have hcur : cur.length = c := hlen cur (by simp)
    have hpos : 0 < (rst.length + 1) * c := Nat.mul_pos (by omega) hc
    simp only [List.length_cons] at hbw
    simp only [List.cons_append, List.append_assoc]
    rw [show (0 : UInt8) = UInt8.ofNat 0 from rfl]
    rw [decodeLine_repeat c bw urf line cur (compressChunks rst ++ rest) 0 (by omega) (by omega) hcur]
    rw [ih _ rest bw]
    · simp
    · intro x hx; exact hlen x (by simp [hx])
    · rw [hbw]; simp [hcur, Nat.add_mul]; omega
  | case4 cur rst h v hv ih =>
    intro line rest bw hlen hbw
    have hne : rst ≠ [] := fun hh => h (Or.inl hh)
    have hpos : 0 < (rst.length + 1) * c := Nat.mul_pos (by omega) hc
    obtain ⟨h1, h2, h3, _⟩ := verbatimCount_spec rst hne
    change 1 ≤ v at h1; change v ≤ 127 at h2; change v ≤ rst.length + 1 at h3
    simp only [List.length_cons] at hbw
    simp only [List.cons_append, List.append_assoc]
    have htl : (((cur :: rst).take v).flatten).length = v * c := by
      rw [flatten_length_const c]
      · rw [List.length_take, List.length_cons, Nat.min_eq_left h3]
      · intro x hx; exact hlen x (List.mem_of_mem_take hx)
    rw [decodeLine_verbatim c bw urf line _ _ v (by omega) (by omega) (by omega) htl]
    rw [ih _ rest bw]
    · rw [List.append_assoc, ← List.flatten_append, List.take_append_drop]
    · intro x hx; exact hlen x (List.mem_of_mem_drop hx)
    · rw [hbw, List.length_append, htl, List.length_drop, List.length_cons]
      have : rst.length + 1 = v + (rst.length + 1 - v) := by omega
      conv => lhs; rw [this, Nat.add_mul]
      omega

end Verif.Raster
