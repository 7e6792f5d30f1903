import Verif.Raster.CodecLemmas
import Verif.Raster.Page
import Verif.Raster.Spec

/-! # Helper lemmas on pages: rows, flips, headers -/

namespace Verif.Raster

open Spec

theorem compressLine_ok (c : Nat) (hc : 0 < c) (n : Nat) (raw : Bytes) (h : raw.length = n * c) :
    ∃ enc, compressLine c raw = .ok enc ∧ ∀ (urf : Bool) (rest : Bytes),
      decodeLine c raw.length urf [] (enc ++ rest) = .ok (raw, rest) := by
  obtain ⟨cs, h1, h2, h3⟩ := exists_chunks c n raw h
  refine ⟨compressChunks cs, ?_, ?_⟩
  · rw [compressLine, ← h1, chunksOf_flatten c hc cs h3]; rfl
  · intro urf rest
    rw [decodeLine_compressChunks c hc urf cs [] rest raw.length h3 (by simp [h, h2])]
    simp [h1]

theorem scanRows_spec (this : Bytes) (xs : List Bytes) (k : Nat) (hk : k < 255) :
    ∃ m, (scanRows this xs k).1 = k + m ∧ xs = List.replicate m this ++ (scanRows this xs k).2 ∧
      k + m ≤ 255 := by
  induction xs generalizing k with
  | nil => exact ⟨0, by simp [scanRows]; omega⟩
  | cons x xs ih =>
    simp only [scanRows]
    split
    · rename_i hx
      subst hx
      split
      · exact ⟨1, by simp; omega⟩
      · obtain ⟨m, h1, h2, h3⟩ := ih (k + 1) (by omega)
        refine ⟨m + 1, by omega, ?_, by omega⟩
        rw [List.replicate_succ, List.cons_append, ← h2]
    · exact ⟨0, by simp; omega⟩

theorem heightAfter_eq (n m : Nat) (h : n + 1 + m < 2 ^ 64) : heightAfter (n + 1 + m) n = m := by
  unfold heightAfter; omega

theorem decodeRows_step (c bw : Nat) (urf : Bool) (height : Nat) (out line enc rest : Bytes) (n : Nat)
    (hn : n ≤ 255) (hh : height ≠ 0)
    (hl : decodeLine c bw urf [] (enc ++ rest) = .ok (line, rest)) :
    decodeRows c bw urf height out (UInt8.ofNat n :: (enc ++ rest)) =
      decodeRows c bw urf (heightAfter height n) (out ++ (List.replicate (n + 1) line).flatten) rest := by
  have hnt : (UInt8.ofNat n).toNat = n := by simp; omega
  conv => lhs; unfold decodeRows
  rw [if_neg hh]
  simp only
  split <;> rename_i h4 <;> rw [hl] at h4 <;> cases h4
  simp only [hnt]

/-- What the row transform of `encodeRows` does: the given function, on every row. -/
theorem decodeRows_encodeRows (bpc c : Nat) (hc : 0 < c) (hflip : Bool) (f : Bytes → Bytes) (w : Nat)
    (rows : List Bytes)
    (hf : ∀ r ∈ rows, lineData bpc c hflip r = .ok (f r) ∧ (f r).length = w * c)
    (hlen : rows.length < 2 ^ 64) :
    ∃ enc, encodeRows bpc c hflip rows = .ok enc ∧ ∀ (urf : Bool) (out rest : Bytes),
      decodeRows c (w * c) urf rows.length out (enc ++ rest) = .ok (out ++ (rows.map f).flatten, rest) := by
  fun_induction encodeRows bpc c hflip rows with
  | case1 =>
    refine ⟨[], rfl, ?_⟩
    intro urf out rest
    unfold decodeRows; simp
  | case2 this rest r ih =>
    obtain ⟨m, h1, h2, h3⟩ := scanRows_spec this rest 0 (by omega)
    change r.1 = _ at h1
    change rest = _ ++ r.2 at h2
    have hl : rest.length = m + r.2.length := by rw [h2]; simp
    simp only [List.length_cons] at hlen
    obtain ⟨hft, hfl⟩ := hf this (by simp)
    obtain ⟨enc, he1, he2⟩ := compressLine_ok c hc w (f this) hfl
    obtain ⟨more, hm1, hm2⟩ := ih (fun x hx => hf x (by rw [h2]; simp [hx])) (by omega)
    refine ⟨UInt8.ofNat r.1 :: enc ++ more, ?_, ?_⟩
    · rw [hft]; simp [he1, hm1]
    · intro urf out rst
      have hd := he2 urf (more ++ rst)
      rw [hfl] at hd
      have hr : r.1 = m := by omega
      simp only [List.cons_append, List.append_assoc, List.length_cons]
      rw [decodeRows_step c (w * c) urf (rest.length + 1) out (f this) enc (more ++ rst) r.1 (by omega)
        (by omega) hd]
      have hha : heightAfter (rest.length + 1) r.1 = r.2.length := by
        rw [show rest.length + 1 = r.1 + 1 + r.2.length by omega]
        exact heightAfter_eq _ _ (by omega)
      rw [hha, hm2]
      conv => rhs; rw [h2]
      simp [hr, List.replicate_succ]

/-! ## Bits -/

theorem getD_flatten (c : Nat) (cs : List Bytes) (h : ∀ x ∈ cs, x.length = c) (i j : Nat)
    (hi : i < cs.length) (hj : j < c) : cs.flatten.getD (c * i + j) 0 = (cs.getD i []).getD j 0 := by
  induction cs generalizing i with
  | nil => simp at hi
  | cons x xs ih =>
    have hx : x.length = c := h x (by simp)
    cases i with
    | zero =>
      simp only [List.flatten_cons, Nat.mul_zero, Nat.zero_add, List.getD_cons_zero]
      simp only [List.getD_eq_getElem?_getD]
      rw [List.getElem?_append_left (by omega)]
    | succ i =>
      have := ih (fun y hy => h y (by simp [hy])) i (by simpa using hi)
      simp only [List.flatten_cons, List.getD_cons_succ]
      rw [← this]
      simp only [List.getD_eq_getElem?_getD]
      rw [List.getElem?_append_right (by rw [hx, Nat.mul_succ]; omega)]
      congr 2
      rw [hx, Nat.mul_succ]; omega

theorem bitAt_flatten (c : Nat) (cs : List Bytes) (h : ∀ x ∈ cs, x.length = c) (i j : Nat)
    (hi : i < cs.length) (hj : j < 8 * c) :
    bitAt cs.flatten (8 * (c * i) + j) = bitAt (cs.getD i []) j := by
  unfold bitAt
  have h1 : (8 * (c * i) + j) / 8 = c * i + j / 8 := by omega
  have h2 : (8 * (c * i) + j) % 8 = j % 8 := by omega
  rw [h1, h2, getD_flatten c cs h i (j / 8) hi (by omega)]

theorem bitReverse_testBit : ∀ b : UInt8, ∀ k, k < 8 →
    (bitReverse b).toNat.testBit (7 - k) = b.toNat.testBit k := by
  have h : ∀ n, n < 256 → ∀ k, k < 8 →
      (bitReverse (UInt8.ofNat n)).toNat.testBit (7 - k) = (UInt8.ofNat n).toNat.testBit k := by
    decide +kernel
  intro b k hk
  have := h b.toNat (UInt8.toNat_lt b) k hk
  simpa using this

/-- Mirroring a row of `n` bytes of 1-bit pixels. -/
theorem bitAt_flip_bits (line : Bytes) (x : Nat) (hx : x < 8 * line.length) :
    bitAt (line.reverse.map bitReverse) x = bitAt line (8 * line.length - 1 - x) := by
  unfold bitAt
  have hd : (8 * line.length - 1 - x) / 8 = line.length - 1 - x / 8 := by omega
  have hm : (8 * line.length - 1 - x) % 8 = 7 - x % 8 := by omega
  rw [hd, hm]
  simp only [List.getD_eq_getElem?_getD, List.getElem?_map]
  rw [List.getElem?_reverse (by omega)]
  have hb : line.length - 1 - x / 8 < line.length := by omega
  rw [List.getElem?_eq_getElem hb]
  simp only [Option.map_some, Option.getD_some]
  rw [bitReverse_testBit _ _ (by omega)]
  congr 1; omega

/-- Mirroring a row of `n` pixels of `c` bytes. -/
theorem bitAt_flip_chunks (c : Nat) (cs : List Bytes) (h : ∀ x ∈ cs, x.length = c) (x k : Nat)
    (hx : x < cs.length) (hk : k < 8 * c) :
    bitAt cs.reverse.flatten (8 * (c * x) + k) = bitAt cs.flatten (8 * (c * (cs.length - 1 - x)) + k) := by
  rw [bitAt_flatten c cs.reverse (by simpa using h) x k (by simpa using hx) hk]
  rw [bitAt_flatten c cs h (cs.length - 1 - x) k (by omega) hk]
  congr 1
  simp only [List.getD_eq_getElem?_getD]
  rw [List.getElem?_reverse hx]

theorem getD_take_drop (raw : Bytes) (o n j : Nat) (hj : j < n) :
    ((raw.drop o).take n).getD j 0 = raw.getD (o + j) 0 := by
  simp only [List.getD_eq_getElem?_getD]
  rw [List.getElem?_take_of_lt hj, List.getElem?_drop]

theorem bitAt_row (raw : Bytes) (o n i : Nat) (hi : i < 8 * n) :
    bitAt ((raw.drop o).take n) i = bitAt raw (8 * o + i) := by
  unfold bitAt
  have h1 : (8 * o + i) / 8 = o + i / 8 := by omega
  have h2 : (8 * o + i) % 8 = i % 8 := by omega
  rw [h1, h2, getD_take_drop _ _ _ _ (by omega)]

theorem rowAt_length (raw : Bytes) (h w : Nat) (v : Bool) (y : Nat) (hy : y < h)
    (hlen : h * w ≤ raw.length) : (rowAt raw h w v y).length = w := by
  unfold rowAt
  rw [List.length_take, List.length_drop]
  have : ∀ z, z < h → w ≤ raw.length - z * w := by
    intro z hz
    have := Nat.mul_le_mul_right w (show z + 1 ≤ h by omega)
    rw [Nat.succ_mul] at this; omega
  split
  · have := this (h - 1 - y) (by omega); omega
  · have := this y hy; omega

end Verif.Raster
