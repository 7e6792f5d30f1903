import Verif.Raster.DocLemmas

/-! # Helper lemmas: opcodes, sizes, ends of decoding -/

namespace Verif.Raster

open Spec

theorem records_compressChunks (c : Nat) (cs : List Bytes) (h : ∀ x ∈ cs, x.length = c) :
    Records c (compressChunks cs) := by
  fun_induction compressChunks cs with
  | case1 => exact .nil
  | case2 cur rst hc r ih =>
    obtain ⟨m, h1, h2, h3⟩ := scanRepeat_spec cur rst 0 (by omega)
    have hr : ∀ x ∈ r.2, x.length = c := by
      intro x hx
      apply h x
      rw [h2]
      simp [r] at hx
      simp [hx]
    have hr1 : r.1 ≤ 127 := by simp only [r, h1]; omega
    exact .repeated r.1 hr1 cur _ (h cur (by simp)) (ih hr)
  | case3 cur rst hc v hv ih =>
    exact .repeated 0 (by omega) cur _ (h cur (by simp)) (ih (fun x hx => h x (by simp [hx])))
  | case4 cur rst hc v hv ih =>
    obtain ⟨h1, h2, h3, -⟩ := verbatimCount_spec rst (fun h => hc (Or.inl h))
    have hvl : ((cur :: rst).take v).length = v := by simp [v]; omega
    refine .literal (257 - v) (by omega) (by omega) _ _ ?_ (ih ?_)
    · rw [flatten_length_const c _ (fun x hx => h x (List.mem_of_mem_take hx)), hvl]
      congr 1
      omega
    · exact fun x hx => h x (List.mem_of_mem_drop hx)

/-- Size bound, with the sharper one for lists that begin with two equal chunks (or are empty). -/
theorem size_compressChunks (c : Nat) (hc : 0 < c) (cs : List Bytes) (h : ∀ x ∈ cs, x.length = c) :
    3 * (compressChunks cs).length ≤ 3 * (cs.length * c) + cs.length + 2 ∧
    ((cs = [] ∨ ∃ x xs, cs = x :: x :: xs) →
      3 * (compressChunks cs).length ≤ 3 * (cs.length * c) + cs.length) := by
  fun_induction compressChunks cs with
  | case1 => simp
  | case2 cur rst hcond r ih =>
    obtain ⟨m, h1, h2, h3⟩ := scanRepeat_spec cur rst 0 (by omega)
    have hr : ∀ x ∈ r.2, x.length = c := by
      intro x hx
      apply h x
      rw [h2]
      simp [r] at hx
      simp [hx]
    have ih := ih hr
    have hcl : cur.length = c := h cur (by simp)
    have hl : rst.length = m + r.2.length := by
      conv => lhs; rw [h2]
      simp [r]
    have hm : rst = [] ∨ 1 ≤ m := by
      rcases hcond with hn | hh
      · exact Or.inl hn
      · right
        cases rst with
        | nil => simp at hh
        | cons a as =>
          simp at hh
          subst hh
          apply Nat.one_le_iff_ne_zero.mpr
          intro h0
          subst h0
          have := (show (scanRepeat a (a :: as) 0).1 = 0 by simpa using h1)
          simp only [scanRepeat] at this
          simp only [if_true] at this
          rw [if_neg (by omega)] at this
          obtain ⟨m', h1', _, _⟩ := scanRepeat_spec a as 1 (by omega)
          simp only [Nat.zero_add] at this
          rw [h1'] at this
          omega
    simp only [List.length_append, List.length_cons, hcl, hl]
    have e1 : (m + r.2.length + 1) * c = m * c + r.2.length * c + c := by
      rw [Nat.add_mul, Nat.add_mul]; omega
    rw [e1]
    have hmc : m ≤ m * c := Nat.le_mul_of_pos_right m hc
    constructor
    · rcases hm with hn | hm
      · rw [hn] at hl
        simp only [List.length_nil] at hl
        have hr0 : r.2 = [] := List.length_eq_zero_iff.mp (by omega)
        have hm0 : m = 0 := by omega
        have := ih.2 (Or.inl hr0)
        rw [hr0] at this ⊢
        simp [compressChunks, hm0]
        omega
      · omega
    · rintro (hx | ⟨x, xs, hx⟩)
      · simp at hx
      · have : 1 ≤ m := by
          rcases hm with hn | hm
          · rw [hn] at hx; simp at hx
          · exact hm
        omega
  | case3 cur rst hcond v hv ih =>
    obtain ⟨h1, h2, h3, h4⟩ := verbatimCount_spec rst (fun h => hcond (Or.inl h))
    have ih := ih (fun x hx => h x (by simp [hx]))
    have hcl : cur.length = c := h cur (by simp)
    have hne : rst ≠ [] := fun h => hcond (Or.inl h)
    have hpos : 0 < rst.length := List.length_pos_iff.mpr hne
    have hyy : ∃ y ys, rst = y :: y :: ys := by
      rcases h4 with h4 | h4 | ⟨y, ys, h4⟩
      · omega
      · omega
      · have : verbatimCount rst - 1 = 0 := by omega
        rw [this, List.drop_zero] at h4
        exact ⟨y, ys, h4⟩
    have := ih.2 (Or.inr hyy)
    simp only [List.length_append, List.length_cons, hcl, Nat.succ_mul]
    constructor
    · omega
    · rintro (hx | ⟨x, xs, hx⟩)
      · simp at hx
      · exfalso; apply hcond; right
        simp at hx
        rw [hx.2]; simp [hx.1]
  | case4 cur rst hcond v hv ih =>
    obtain ⟨h1, h2, h3, h4⟩ := verbatimCount_spec rst (fun h => hcond (Or.inl h))
    have hvl : ((cur :: rst).take v).length = v := by simp [v]; omega
    have ih := ih (fun x hx => h x (List.mem_of_mem_drop hx))
    have hfl : ((cur :: rst).take v).flatten.length = v * c := by
      rw [flatten_length_const c _ (fun x hx => h x (List.mem_of_mem_take hx)), hvl]
    have hdl : ((cur :: rst).drop v).length = rst.length + 1 - v := by simp
    have hsum : (rst.length + 1) * c = v * c + (rst.length + 1 - v) * c := by
      rw [← Nat.add_mul]; congr 1; omega
    simp only [List.length_append, List.length_cons, hfl, hsum]
    rw [hdl] at ih
    have hv2 : 2 ≤ v := by omega
    constructor
    · rcases h4 with h4 | h4 | ⟨y, ys, h4⟩
      · have : (cur :: rst).drop v = [] := List.drop_eq_nil_of_le (by simp [v]; omega)
        have := ih.2 (Or.inl this)
        omega
      · have : v = 126 := h4
        omega
      · have hd : (cur :: rst).drop v = y :: y :: ys := by
          have : v = (v - 1) + 1 := by omega
          rw [this, List.drop_succ_cons]; exact h4
        have := ih.2 (Or.inr ⟨y, ys, hd⟩)
        omega
    · rintro (hx | ⟨x, xs, hx⟩)
      · simp at hx
      · exfalso; apply hcond; right
        simp at hx
        rw [hx.2]; simp [hx.1]

theorem compressLine_size (c : Nat) (hc : 0 < c) (n : Nat) (raw : Bytes) (h : raw.length = n * c) :
    ∃ enc, compressLine c raw = .ok enc ∧ Records c enc ∧ 3 * enc.length ≤ 3 * raw.length + n + 2 := by
  obtain ⟨cs, h1, h2, h3⟩ := exists_chunks c n raw h
  refine ⟨compressChunks cs, ?_, records_compressChunks c cs h3, ?_⟩
  · rw [compressLine, ← h1, chunksOf_flatten c hc cs h3]; rfl
  · have := (size_compressChunks c hc cs h3).1
    rw [h, ← h2]; exact this

theorem encodeRows_size (bpc c : Nat) (hc : 0 < c) (hflip : Bool) (f : Bytes → Bytes) (w : Nat)
    (rows : List Bytes)
    (hf : ∀ r ∈ rows, lineData bpc c hflip r = .ok (f r) ∧ (f r).length = w * c) :
    ∃ enc, encodeRows bpc c hflip rows = .ok enc ∧ BodyRecords c rows.length enc ∧
      3 * enc.length ≤ rows.length * (3 * (w * c) + w + 5) := by
  fun_induction encodeRows bpc c hflip rows with
  | case1 => exact ⟨[], rfl, .nil, by simp⟩
  | case2 this rest r ih =>
    obtain ⟨m, h1, h2, h3⟩ := scanRows_spec this rest 0 (by omega)
    have hr : ∀ x ∈ r.2, x ∈ this :: rest := by
      intro x hx
      rw [h2]
      simp [r] at hx
      simp [hx]
    obtain ⟨enc, he1, he2, he3⟩ := ih (fun x hx => hf x (hr x hx))
    obtain ⟨hl1, hl2⟩ := hf this (by simp)
    obtain ⟨line, hc1, hc2, hc3⟩ := compressLine_size c hc w (f this) hl2
    have hlen : (this :: rest).length = r.1 + 1 + r.2.length := by
      have : rest.length = m + r.2.length := by
        conv => lhs; rw [h2]
        simp [r]
      have h5 : r.1 = m := by simp [r, h1]
      simp; omega
    refine ⟨UInt8.ofNat r.1 :: (line ++ enc), ?_, ?_, ?_⟩
    · simp only [hl1, hc1, he1, Outcome.bind_ok]
      rfl
    · rw [hlen]
      have : r.1 ≤ 255 := by simp only [r, h1]; omega
      exact .rows r.1 r.2.length this line enc hc2 he2
    · rw [hlen]
      simp only [List.length_cons, List.length_append]
      have e : (r.1 + 1 + r.2.length) * (3 * (w * c) + w + 5) =
        (r.1 * (3 * (w * c) + w + 5)) + (3 * (w * c) + w + 5) + r.2.length * (3 * (w * c) + w + 5) := by
        rw [Nat.add_mul, Nat.add_mul, Nat.one_mul]
      rw [e]
      rw [hl2] at hc3
      generalize r.1 * (3 * (w * c) + w + 5) = a
      generalize r.2.length * (3 * (w * c) + w + 5) = b at *
      generalize w * c = d at *
      omega

/-! ## Ends of decoding -/

theorem rdBytes_cases (n : Nat) (s : Bytes) : (∃ x, rdBytes n s = .ok x) ∨ ∃ e, rdBytes n s = .throws e := by
  unfold rdBytes; split
  · exact Or.inl ⟨_, rfl⟩
  · exact Or.inr ⟨_, rfl⟩

/-- Without fill codes a line is decoded or an exception is thrown. -/
theorem decodeLine_ends (c bw : Nat) (urf : Bool) (line file : Bytes) (h : urf = true → (128 : UInt8) ∉ file) :
    (∃ x, decodeLine c bw urf line file = .ok x ∧ x.1.length = bw ∧ ∃ k, x.2 = file.drop k) ∨
    ∃ e, decodeLine c bw urf line file = .throws e := by
  have hin : ∀ n s, (∃ e, rdBytes n s = .throws e) ∨ ∃ x, rdBytes n s = .ok x ∧ x.2 = s.drop n := by
    intro n s
    unfold rdBytes; split
    · exact Or.inr ⟨_, rfl, rfl⟩
    · exact Or.inl ⟨_, rfl⟩
  fun_induction decodeLine c bw urf line file with
  | case1 line file hl => exact Or.inl ⟨_, rfl, hl, 0, rfl⟩
  | case2 => exact Or.inr ⟨_, rfl⟩
  | case3 line hne count rest hc =>
    exfalso
    exact h hc.1 (by simp [hc.2])
  | case4 line hne count rest hc hlt y hy ih =>
    rcases hin c rest with ⟨e, he⟩ | ⟨x, hx, hx2⟩
    · rw [he] at hy; cases hy
    · rw [hx] at hy; obtain rfl : x = y := by cases hy; rfl
      have hmem : urf = true → (128 : UInt8) ∉ x.2 := by
        intro hu hm; rw [hx2] at hm; exact h hu (List.mem_cons_of_mem _ (List.mem_of_mem_drop hm))
      rcases ih hmem with ⟨z, h1, h2, k, h3⟩ | he
      · refine Or.inl ⟨z, h1, h2, c + k + 1, ?_⟩
        rw [h3, hx2, List.drop_drop, List.drop_succ_cons]
      · exact Or.inr he
  | case5 line hne count rest hc hlt e he => exact Or.inr ⟨e, rfl⟩
  | case8 line hne count rest hc hlt y hy ih =>
    rcases hin ((257 - count.toNat) * c) rest with ⟨e, he⟩ | ⟨x, hx, hx2⟩
    · rw [he] at hy; cases hy
    · rw [hx] at hy; obtain rfl : x = y := by cases hy; rfl
      have hmem : urf = true → (128 : UInt8) ∉ x.2 := by
        intro hu hm; rw [hx2] at hm; exact h hu (List.mem_cons_of_mem _ (List.mem_of_mem_drop hm))
      rcases ih hmem with ⟨z, h1, h2, k, h3⟩ | he
      · refine Or.inl ⟨z, h1, h2, (257 - count.toNat) * c + k + 1, ?_⟩
        rw [h3, hx2, List.drop_drop, List.drop_succ_cons]
      · exact Or.inr he
  | case9 line hne count rest hc hlt e he => exact Or.inr ⟨e, rfl⟩
  | case6 line hne count rest hc hlt hu => rcases hin c rest with ⟨e, he⟩ | ⟨x, hx, _⟩ <;> simp_all
  | case7 line hne count rest hc hlt hu => rcases hin c rest with ⟨e, he⟩ | ⟨x, hx, _⟩ <;> simp_all
  | case10 line hne count rest hc hlt hu =>
    rcases hin ((257 - count.toNat) * c) rest with ⟨e, he⟩ | ⟨x, hx, _⟩ <;> simp_all
  | case11 line hne count rest hc hlt hu =>
    rcases hin ((257 - count.toNat) * c) rest with ⟨e, he⟩ | ⟨x, hx, _⟩ <;> simp_all

theorem decodeRows_ends (c bw : Nat) (urf : Bool) (height : Nat) (out file : Bytes)
    (h : urf = true → (128 : UInt8) ∉ file) :
    (∃ x, decodeRows c bw urf height out file = .ok x) ∨ ∃ e, decodeRows c bw urf height out file = .throws e := by
  fun_induction decodeRows c bw urf height out file with
  | case1 => exact Or.inl ⟨_, rfl⟩
  | case2 => exact Or.inr ⟨_, rfl⟩
  | case3 height out hne l rest y hy ih =>
    apply ih
    intro hu hm
    rcases decodeLine_ends c bw urf [] rest (fun hu hm => h hu (List.mem_cons_of_mem _ hm)) with ⟨x, h1, _, k, h2⟩ | ⟨e, he⟩
    · rw [hy] at h1; cases h1
      rw [h2] at hm
      exact h hu (List.mem_cons_of_mem _ (List.mem_of_mem_drop hm))
    · rw [hy] at he; cases he
  | case4 height out hne l rest e he => exact Or.inr ⟨e, rfl⟩
  | case5 height out hne l rest hu =>
    rcases decodeLine_ends c bw urf [] rest (fun hu hm => h hu (List.mem_cons_of_mem _ hm)) with ⟨x, h1, _⟩ | ⟨e, he⟩ <;>
      simp_all
  | case6 height out hne l rest hu =>
    rcases decodeLine_ends c bw urf [] rest (fun hu hm => h hu (List.mem_cons_of_mem _ hm)) with ⟨x, h1, _⟩ | ⟨e, he⟩ <;>
      simp_all

theorem decodeLine_size (c bw : Nat) (urf : Bool) (line file : Bytes) (x : Bytes × Bytes)
    (h : decodeLine c bw urf line file = .ok x) : x.1.length = bw := by
  fun_induction decodeLine c bw urf line file with
  | case1 line file hl => cases h; exact hl
  | case2 => cases h
  | case3 line hne count rest hc =>
    rw [Outcome.bind_eq_ok] at h
    obtain ⟨a, ha, h⟩ := h
    cases h
    unfold fillWhite at ha
    dsimp only at ha
    split at ha
    · rename_i hcond
      cases ha
      rw [List.length_append, flatten_length_const (whiteFor c).length _ (by
        intro y hy; simp only [List.mem_replicate] at hy; rw [hy.2]), List.length_replicate]
      have := Nat.div_mul_cancel (Nat.dvd_of_mod_eq_zero hcond.2)
      omega
    · cases ha
  | case4 line hne count rest hc hlt y hy ih => exact ih h
  | case8 line hne count rest hc hlt y hy ih => exact ih h
  | _ => cases h

/-- A page that decodes without an exception has exactly the announced number of lines (for files of less than
2^55 bytes: the line counter of the decoder would have to wrap around). -/
theorem decodeRows_size (c bw : Nat) (urf : Bool) (height : Nat) (out file : Bytes) (x : Bytes × Bytes)
    (h : decodeRows c bw urf height out file = .ok x) :
    height ≤ 256 * file.length ∨ height < 2 ^ 64 → file.length < 2 ^ 55 →
    x.1.length = out.length + height * bw ∧ height ≤ 256 * file.length := by
  fun_induction decodeRows c bw urf height out file with
  | case1 out file => cases h; intro _ _; simp
  | case2 => cases h
  | case3 height out hne l rest y hy ih =>
    intro h1 h2
    have h64 : height < 2 ^ 64 := by simp at h2; simp at h1; omega
    have hl := UInt8.toNat_lt l
    have hy2 := decodeLine_length hy
    have hys := decodeLine_size _ _ _ _ _ _ hy
    simp only [List.length_cons] at h2 ⊢
    have hb := ih h (Or.inr (by unfold heightAfter; omega)) (by omega)
    have hge : l.toNat + 1 ≤ height := by
      apply Decidable.byContradiction
      intro hn
      have : heightAfter height l.toNat = height + 2 ^ 64 - 1 - l.toNat := by unfold heightAfter; omega
      omega
    have he : heightAfter height l.toNat = height - 1 - l.toNat := by unfold heightAfter; omega
    rw [he] at hb
    refine ⟨?_, by have := hb.2; rw [he] at *; omega⟩
    rw [hb.1, List.length_append, flatten_length_const bw _ (by
        intro z hz; simp only [List.mem_replicate] at hz; rw [hz.2]; exact hys), List.length_replicate]
    have : height = (l.toNat + 1) + (height - 1 - l.toNat) := by omega
    conv => rhs; rw [this]
    rw [Nat.add_mul (l.toNat + 1)]; omega
  | _ => cases h

end Verif.Raster
