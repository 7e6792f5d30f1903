import Verif.Raster.PageLemmas

/-!
# Raster streams of any encoder: specification and lemmas

A page of PWG raster (PWG 5102.4, section 4.4) or URF is a sequence of row groups: a byte with the number of further rows, then the codes of
the row. Nothing here refers to the model of the codec; the lemmas connect it with the decoder.
-/

namespace Verif.Raster

namespace Spec

/-- White in the color space of URF pages with this number of bytes per pixel: sGray and sRGB are additive, CMYK is subtractive. -/
def white (c : Nat) : Bytes := if c = 4 then [0, 0, 0, 0] else List.replicate c 255

/-- The codes of (the rest of) a row of `n` pixels of `c` bytes each, and the pixels they stand for. With `fill`, the code 128 stands for
white pixels up to the end of the row. -/
inductive RowCode (c : Nat) (fill : Bool) : Nat → Bytes → List Bytes → Prop where
  | done : RowCode c fill 0 [] []
  | repeated (k n : Nat) (hk : k < 128) (px code : Bytes) (pxs : List Bytes) (hp : px.length = c) :
      RowCode c fill n code pxs →
      RowCode c fill (k + 1 + n) (UInt8.ofNat k :: (px ++ code)) (List.replicate (k + 1) px ++ pxs)
  | literal (n : Nat) (lit pxs : List Bytes) (code : Bytes) (h1 : 2 ≤ lit.length) (h2 : lit.length ≤ 128)
      (hp : ∀ px ∈ lit, px.length = c) : RowCode c fill n code pxs →
      RowCode c fill (lit.length + n) (UInt8.ofNat (257 - lit.length) :: (lit.flatten ++ code)) (lit ++ pxs)
  | fill (n : Nat) (hn : 0 < n) (hf : fill = true) : RowCode c fill n [128] (List.replicate n (white c))

/-- The codes of (the rest of) a page of `h` rows of `n` pixels, and the rows they stand for. -/
inductive PageCode (c : Nat) (fill : Bool) (n : Nat) : Nat → Bytes → List (List Bytes) → Prop where
  | done : PageCode c fill n 0 [] []
  | rows (k h : Nat) (hk : k ≤ 255) (row code : Bytes) (pxs : List Bytes) (rows : List (List Bytes)) :
      RowCode c fill n row pxs → PageCode c fill n h code rows →
      PageCode c fill n (k + 1 + h) (UInt8.ofNat k :: (row ++ code)) (List.replicate (k + 1) pxs ++ rows)

/-- A sequence of codes that leaves the reader inside a row of `w` bytes, `have` bytes of which it has already: no proper beginning of it
completes the row exactly. `total` is the number of bytes afterwards. (Codes of any length, also such that go beyond the end of the row.) -/
inductive Inside (c w : Nat) (fill : Bool) : Nat → Bytes → Nat → Prop where
  | here (m : Nat) (h : m ≠ w) : Inside c w fill m [] m
  | repeated (m k total : Nat) (h : m ≠ w) (hk : k < 128) (px code : Bytes) (hp : px.length = c) :
      Inside c w fill (m + (k + 1) * c) code total →
      Inside c w fill m (UInt8.ofNat k :: (px ++ code)) total
  | literal (m k total : Nat) (h : m ≠ w) (h1 : 2 ≤ k) (h2 : k ≤ 129) (hf : fill = true → k ≠ 129) (lit code : Bytes)
      (hp : lit.length = k * c) : Inside c w fill (m + k * c) code total →
      Inside c w fill m (UInt8.ofNat (257 - k) :: (lit ++ code)) total

/-- The number of bytes that the decoder puts into the row at a time when it obeys a fill code. -/
def fillStep (c : Nat) : Nat := if c = 1 then 1 else if c = 4 then 4 else 3

/-- A fill code can not be obeyed when `m` bytes of a row of `w` bytes are there: the row is too long already, or what is missing is not a whole
number of pixels. -/
def Stuck (c w m : Nat) : Prop := w < m ∨ (w - m) % fillStep c ≠ 0

/-- A sequence of codes that completes a row of `w` bytes, `m` of which are there already, exactly. -/
inductive Completes (c w : Nat) (fill : Bool) : Nat → Bytes → Prop where
  | done : Completes c w fill w []
  | repeated (m k : Nat) (h : m ≠ w) (hk : k < 128) (px code : Bytes) (hp : px.length = c) :
      Completes c w fill (m + (k + 1) * c) code →
      Completes c w fill m (UInt8.ofNat k :: (px ++ code))
  | literal (m k : Nat) (h : m ≠ w) (h1 : 2 ≤ k) (h2 : k ≤ 129) (hf : fill = true → k ≠ 129) (lit code : Bytes)
      (hp : lit.length = k * c) : Completes c w fill (m + k * c) code →
      Completes c w fill m (UInt8.ofNat (257 - k) :: (lit ++ code))
  | fill (m : Nat) (h : m ≠ w) (hf : fill = true) (hs : ¬ Stuck c w m) : Completes c w fill m [128]

/-- Whole rows, read while `h` rows are to come: afterwards `h'` rows are to come. (The number is a 64-bit one and wraps when a row is repeated
more often than there are rows.) -/
inductive WholeRows (c w : Nat) (fill : Bool) : Nat → Bytes → Nat → Prop where
  | none (h : Nat) : WholeRows c w fill h [] h
  | row (h h' k : Nat) (hh : h ≠ 0) (hk : k ≤ 255) (row code : Bytes) : Completes c w fill 0 row →
      WholeRows c w fill ((h + 2 ^ 64 - (k + 1)) % 2 ^ 64) code h' →
      WholeRows c w fill h (UInt8.ofNat k :: (row ++ code)) h'

end Spec

theorem decodeLine_fill (c bw : Nat) (line s w : Bytes) (k : Nat) (hl : line.length ≠ bw) (hw : whiteFor c = w) (hw0 : 0 < w.length)
    (hk : line.length + k * w.length = bw) :
    decodeLine c bw true line (128 :: s) = .ok (line ++ (List.replicate k w).flatten, s) := by
  unfold decodeLine
  rw [if_neg hl]
  simp only [true_and, if_true]
  unfold fillWhite
  simp only [hw]
  have h1 : bw - line.length = k * w.length := by omega
  rw [if_pos (by rw [h1]; exact ⟨by omega, Nat.mul_mod_left _ _⟩), h1, Nat.mul_div_cancel _ hw0]
  rfl

/-- What `whiteFor` gives is white except for gray. -/
theorem whiteFor_eq (c : Nat) (h : c = 3 ∨ c = 4) : whiteFor c = Spec.white c ∧ (Spec.white c).length = c := by
  rcases h with rfl | rfl <;> decide

theorem rowCode_length {c : Nat} {fill : Bool} {n : Nat} {code : Bytes} {pxs : List Bytes}
    (h : Spec.RowCode c fill n code pxs) (hc : c = 1 ∨ c = 3 ∨ c = 4) :
    pxs.length = n ∧ ∀ px ∈ pxs, px.length = c := by
  induction h with
  | done => simp
  | repeated k n hk px code pxs hp _ ih =>
    refine ⟨by simp [ih.1], fun q hq => ?_⟩
    rcases List.mem_append.mp hq with hq | hq
    · rw [(List.mem_replicate.mp hq).2]; exact hp
    · exact ih.2 q hq
  | literal n lit pxs code h1 h2 hp _ ih =>
    refine ⟨by simp [ih.1], fun q hq => ?_⟩
    rcases List.mem_append.mp hq with hq | hq
    · exact hp q hq
    · exact ih.2 q hq
  | fill n hn hf =>
    refine ⟨by simp, fun q hq => ?_⟩
    rw [(List.mem_replicate.mp hq).2]
    rcases hc with rfl | rfl | rfl <;> decide

/-- The decoder reads the codes of a row as what they stand for. -/
theorem decodeLine_rowCode {c : Nat} {fill : Bool} {n : Nat} {code : Bytes} {pxs : List Bytes}
    (h : Spec.RowCode c fill n code pxs) (hc : 0 < c) (urf : Bool) (hu : fill = true → urf = true ∧ (c = 3 ∨ c = 4))
    (line rest : Bytes) (bw : Nat) (hb : line.length + n * c = bw) :
    decodeLine c bw urf line (code ++ rest) = .ok (line ++ pxs.flatten, rest) := by
  induction h generalizing line with
  | done =>
    rw [List.nil_append, decodeLine_done c bw urf line rest (by omega)]; simp
  | repeated k n hk px code pxs hp _ ih =>
    have hne : line.length ≠ bw := by
      have : 0 < (k + 1 + n) * c := Nat.mul_pos (by omega) hc
      omega
    rw [List.cons_append, List.append_assoc, decodeLine_repeat c bw urf line px (code ++ rest) k hk hne hp, ih]
    · simp
    · have h1 := flatten_length_const c (List.replicate (k + 1) px) (fun x hx => by rw [(List.mem_replicate.mp hx).2]; exact hp)
      rw [List.length_append, h1, List.length_replicate]
      rw [Nat.add_mul] at hb; omega
  | literal n lit pxs code h1 h2 hp _ ih =>
    have hne : line.length ≠ bw := by
      have : 0 < (lit.length + n) * c := Nat.mul_pos (by omega) hc
      omega
    have hlf := flatten_length_const c lit hp
    rw [List.cons_append, List.append_assoc, decodeLine_verbatim c bw urf line lit.flatten (code ++ rest) lit.length h1 h2 hne hlf, ih]
    · simp
    · rw [List.length_append, hlf]; rw [Nat.add_mul] at hb; omega
  | fill n hn hf =>
    obtain ⟨rfl, hc3⟩ := hu hf
    obtain ⟨hw, hwl⟩ := whiteFor_eq c hc3
    have hne : line.length ≠ bw := by
      have : 0 < n * c := Nat.mul_pos hn hc
      omega
    exact decodeLine_fill c bw line rest (Spec.white c) n hne hw (by omega) (by rw [hwl]; exact hb)

/-- The decoder reads the codes of a page as what they stand for. -/
theorem decodeRows_pageCode {c : Nat} {fill : Bool} {n h : Nat} {code : Bytes} {rows : List (List Bytes)}
    (hp : Spec.PageCode c fill n h code rows) (hc : 0 < c) (urf : Bool) (hu : fill = true → urf = true ∧ (c = 3 ∨ c = 4))
    (hh : h < 2 ^ 64) (out rest : Bytes) :
    decodeRows c (n * c) urf h out (code ++ rest) = .ok (out ++ (rows.map List.flatten).flatten, rest) := by
  induction hp generalizing out with
  | done => unfold decodeRows; simp
  | rows k h hk row code pxs rows hr _ ih =>
    have hl := decodeLine_rowCode hr hc urf hu [] (code ++ rest) (n * c) (by simp)
    rw [List.cons_append, List.append_assoc, decodeRows_step c (n * c) urf _ out _ row (code ++ rest) k hk (by omega) hl,
      heightAfter_eq k h hh, ih (by omega)]
    simp

/-! ## Endless loops -/

theorem whiteFor_length (c : Nat) : (whiteFor c).length = Spec.fillStep c := by
  unfold whiteFor Spec.fillStep
  split
  · rfl
  · split <;> rfl

theorem decodeLine_literal (c w : Nat) (urf : Bool) (line lit rest : Bytes) (k : Nat) (h : line.length ≠ w) (h1 : 2 ≤ k) (h2 : k ≤ 129)
    (hf : urf = true → k ≠ 129) (hp : lit.length = k * c) :
    decodeLine c w urf line (UInt8.ofNat (257 - k) :: (lit ++ rest)) = decodeLine c w urf (line ++ lit) rest := by
  by_cases hk : k ≤ 128
  · exact decodeLine_verbatim c w urf line lit rest k h1 hk h hp
  · have hk : k = 129 := by omega
    subst hk
    have hu : urf = false := by cases urf; rfl; exact absurd rfl (hf rfl)
    subst hu
    conv => lhs; unfold decodeLine
    rw [if_neg h]
    have h3 : rdBytes ((257 - (UInt8.ofNat (257 - 129)).toNat) * c) (lit ++ rest) = .ok (lit, rest) := by
      apply rdBytes_append
      rw [hp]; congr 1
    have h4 : ¬ UInt8.ofNat (257 - 129) < 128 := by decide
    simp only [Bool.false_eq_true, false_and, if_false, if_neg h4]
    split <;> rename_i h5 <;> rw [h3] at h5 <;> cases h5
    rfl

theorem decodeLine_inside {c w : Nat} {urf : Bool} {m total : Nat} {code : Bytes} (h : Spec.Inside c w urf m code total)
    (line rest : Bytes) (hm : line.length = m) :
    ∃ line', line'.length = total ∧ total ≠ w ∧ decodeLine c w urf line (code ++ rest) = decodeLine c w urf line' rest := by
  induction h generalizing line with
  | here m h => exact ⟨line, hm, h, rfl⟩
  | repeated m k total h hk px code hp _ ih =>
    rw [List.cons_append, List.append_assoc, decodeLine_repeat c w urf line px (code ++ rest) k hk (by omega) hp]
    apply ih
    have h1 := flatten_length_const c (List.replicate (k + 1) px) (fun x hx => by rw [(List.mem_replicate.mp hx).2]; exact hp)
    rw [List.length_append, h1, List.length_replicate, hm]
  | literal m k total h h1 h2 hf lit code hp _ ih =>
    rw [List.cons_append, List.append_assoc, decodeLine_literal c w urf line lit (code ++ rest) k (by omega) h1 h2 hf hp]
    apply ih
    rw [List.length_append, hp, hm]

/-- A fill code that can not be obeyed: nothing, or not a whole number of white pixels, is missing to the row. -/
theorem decodeLine_hang_of {c w : Nat} {m total : Nat} {code : Bytes} (h : Spec.Inside c w true m code total)
    (line rest : Bytes) (hm : line.length = m) (hbad : Spec.Stuck c w total) :
    decodeLine c w true line (code ++ 128 :: rest) = .hang := by
  obtain ⟨line', h1, h2, h3⟩ := decodeLine_inside h line (128 :: rest) hm
  rw [h3]
  unfold decodeLine
  rw [if_neg (by omega)]
  simp only [true_and, if_true]
  unfold fillWhite
  simp only
  rw [if_neg (by rw [h1, whiteFor_length]; rintro ⟨a, b⟩; unfold Spec.Stuck at hbad; omega)]
  rfl

theorem hang_of_decodeLine {c w : Nat} {urf : Bool} {line file : Bytes} (h : decodeLine c w urf line file = .hang) :
    urf = true ∧ ∃ code rest total, file = code ++ 128 :: rest ∧ Spec.Inside c w true line.length code total ∧
      Spec.Stuck c w total := by
  fun_induction decodeLine c w urf line file with
  | case1 => cases h
  | case2 => cases h
  | case3 line hne count rest hc =>
    refine ⟨hc.1, [], rest, line.length, by rw [hc.2]; rfl, .here _ hne, ?_⟩
    unfold fillWhite at h
    simp only at h
    split at h
    · cases h
    · rename_i hn; rw [whiteFor_length] at hn; unfold Spec.Stuck; omega
  | case4 line hne count rest hc hlt y hy ih =>
    obtain ⟨hu, code, rest', total, h1, h2, h3⟩ := ih h
    refine ⟨hu, count :: (y.1 ++ code), rest', total, ?_, ?_, h3⟩
    · have := (rdBytes_ok (x := y.1) (r := y.2) hy).1
      rw [this, h1]; simp
    · have hy2 := (rdBytes_ok (x := y.1) (r := y.2) hy).2
      have hcnt : UInt8.ofNat count.toNat = count := by simp
      rw [← hcnt]
      rw [UInt8.lt_iff_toNat_lt] at hlt
      refine .repeated _ count.toNat total hne (by simpa using hlt) y.1 code hy2 ?_
      have h5 := flatten_length_const c (List.replicate (count.toNat + 1) y.1)
        (fun x hx => by rw [(List.mem_replicate.mp hx).2]; exact hy2)
      rw [List.length_append, h5, List.length_replicate] at h2
      exact h2
  | case8 line hne count rest hc hlt y hy ih =>
    obtain ⟨hu, code, rest', total, h1, h2, h3⟩ := ih h
    refine ⟨hu, count :: (y.1 ++ code), rest', total, ?_, ?_, h3⟩
    · have := (rdBytes_ok (x := y.1) (r := y.2) hy).1
      rw [this, h1]; simp
    · have hy2 := (rdBytes_ok (x := y.1) (r := y.2) hy).2
      have hlt' : 128 ≤ count.toNat := by
        rw [UInt8.lt_iff_toNat_lt] at hlt; simpa using hlt
      have hmax := count.toNat_lt
      have h129 : count.toNat ≠ 128 := by
        intro h128
        apply hc
        refine ⟨hu, ?_⟩
        rw [← UInt8.toNat_inj]; simpa using h128
      have hcnt : UInt8.ofNat (257 - (257 - count.toNat)) = count := by
        rw [show 257 - (257 - count.toNat) = count.toNat by omega]; simp
      rw [← hcnt]
      refine .literal _ (257 - count.toNat) total hne (by omega) (by omega) (fun _ => by omega) y.1 code hy2 ?_
      rw [List.length_append, hy2] at h2
      exact h2
  | case7 line hne count rest hc hlt hy =>
    unfold rdBytes at hy; split at hy <;> cases hy
  | case11 line hne count rest hc hlt hy =>
    unfold rdBytes at hy; split at hy <;> cases hy
  | _ => cases h

theorem decodeLine_completes {c w : Nat} {urf : Bool} {m : Nat} {code : Bytes} (h : Spec.Completes c w urf m code)
    (line rest : Bytes) (hm : line.length = m) : ∃ line', decodeLine c w urf line (code ++ rest) = .ok (line', rest) := by
  induction h generalizing line with
  | done => exact ⟨line, decodeLine_done c w urf line rest hm⟩
  | repeated m k h hk px code hp _ ih =>
    rw [List.cons_append, List.append_assoc, decodeLine_repeat c w urf line px (code ++ rest) k hk (by omega) hp]
    apply ih
    have h1 := flatten_length_const c (List.replicate (k + 1) px) (fun x hx => by rw [(List.mem_replicate.mp hx).2]; exact hp)
    rw [List.length_append, h1, List.length_replicate, hm]
  | literal m k h h1 h2 hf lit code hp _ ih =>
    rw [List.cons_append, List.append_assoc, decodeLine_literal c w urf line lit (code ++ rest) k (by omega) h1 h2 hf hp]
    apply ih
    rw [List.length_append, hp, hm]
  | fill m h hf hs =>
    subst hf
    rw [Spec.Stuck, ← whiteFor_length] at hs
    have hl : 0 < (whiteFor c).length := by
      rw [whiteFor_length]; unfold Spec.fillStep
      split
      · omega
      · split <;> omega
    refine ⟨_, decodeLine_fill c w line rest (whiteFor c) ((w - m) / (whiteFor c).length) (by omega) rfl hl ?_⟩
    rw [Nat.div_mul_cancel (Nat.dvd_of_mod_eq_zero (Decidable.not_not.mp fun h => hs (.inr h)))]
    have : ¬ w < m := fun h => hs (.inl h)
    omega

theorem completes_of_decodeLine {c w : Nat} {urf : Bool} {line file : Bytes} {x : Bytes × Bytes}
    (h : decodeLine c w urf line file = .ok x) : ∃ code, file = code ++ x.2 ∧ Spec.Completes c w urf line.length code := by
  fun_induction decodeLine c w urf line file with
  | case1 line file hl => cases h; subst hl; exact ⟨[], rfl, .done⟩
  | case2 => cases h
  | case3 line hne count rest hc =>
    rw [Outcome.bind_eq_ok] at h
    obtain ⟨a, h1, h⟩ := h; cases h
    refine ⟨[128], by rw [hc.2]; rfl, .fill _ hne hc.1 ?_⟩
    unfold fillWhite at h1
    simp only at h1
    split at h1
    · rename_i hn; rw [whiteFor_length] at hn; unfold Spec.Stuck; omega
    · cases h1
  | case4 line hne count rest hc hlt y hy ih =>
    obtain ⟨code, h1, h2⟩ := ih h
    refine ⟨count :: (y.1 ++ code), ?_, ?_⟩
    · have := (rdBytes_ok (x := y.1) (r := y.2) hy).1
      rw [this, h1]; simp
    · have hy2 := (rdBytes_ok (x := y.1) (r := y.2) hy).2
      have hcnt : UInt8.ofNat count.toNat = count := by simp
      rw [← hcnt]
      rw [UInt8.lt_iff_toNat_lt] at hlt
      refine .repeated _ count.toNat hne (by simpa using hlt) y.1 code hy2 ?_
      have h5 := flatten_length_const c (List.replicate (count.toNat + 1) y.1)
        (fun x hx => by rw [(List.mem_replicate.mp hx).2]; exact hy2)
      rw [List.length_append, h5, List.length_replicate] at h2
      exact h2
  | case8 line hne count rest hc hlt y hy ih =>
    obtain ⟨code, h1, h2⟩ := ih h
    refine ⟨count :: (y.1 ++ code), ?_, ?_⟩
    · have := (rdBytes_ok (x := y.1) (r := y.2) hy).1
      rw [this, h1]; simp
    · have hy2 := (rdBytes_ok (x := y.1) (r := y.2) hy).2
      have hlt' : 128 ≤ count.toNat := by
        rw [UInt8.lt_iff_toNat_lt] at hlt; simpa using hlt
      have hmax := count.toNat_lt
      have h129 : urf = true → count.toNat ≠ 128 := by
        intro hu h128
        apply hc
        refine ⟨hu, ?_⟩
        rw [← UInt8.toNat_inj]; simpa using h128
      have hcnt : UInt8.ofNat (257 - (257 - count.toNat)) = count := by
        rw [show 257 - (257 - count.toNat) = count.toNat by omega]; simp
      rw [← hcnt]
      refine .literal _ (257 - count.toNat) hne (by omega) (by omega) (fun hu => by have := h129 hu; omega) y.1 code hy2 ?_
      rw [List.length_append, hy2] at h2
      exact h2
  | _ => cases h

theorem decodeRows_wholeRows {c w : Nat} {urf : Bool} {h h' : Nat} {code : Bytes} (hr : Spec.WholeRows c w urf h code h')
    (out rest : Bytes) : ∃ out', decodeRows c w urf h out (code ++ rest) = decodeRows c w urf h' out' rest := by
  induction hr generalizing out with
  | none h => exact ⟨out, rfl⟩
  | row h h' k hh hk row code hc _ ih =>
    obtain ⟨line, hl⟩ := decodeLine_completes hc [] (code ++ rest) rfl
    rw [List.cons_append, List.append_assoc, decodeRows_step c w urf h out line row (code ++ rest) k hk hh hl]
    have : heightAfter h k = (h + 2 ^ 64 - (k + 1)) % 2 ^ 64 := by unfold heightAfter; omega
    rw [this]
    exact ih _

theorem hang_of_decodeRows {c w : Nat} {urf : Bool} {h : Nat} {out file : Bytes} (hd : decodeRows c w urf h out file = .hang) :
    urf = true ∧ ∃ done h' k code rest total, file = done ++ k :: (code ++ 128 :: rest) ∧ Spec.WholeRows c w true h done h' ∧
      h' ≠ 0 ∧ Spec.Inside c w true 0 code total ∧ Spec.Stuck c w total := by
  fun_induction decodeRows c w urf h out file with
  | case1 => cases hd
  | case2 => cases hd
  | case3 h out hne lineRepeat rest x hx ih =>
    obtain ⟨hu, done, h', k, code, rest', total, h1, h2, h3⟩ := ih hd
    subst hu
    obtain ⟨row, h4, h5⟩ := completes_of_decodeLine hx
    have hmax := lineRepeat.toNat_lt
    refine ⟨rfl, lineRepeat :: (row ++ done), h', k, code, rest', total, by rw [h4, h1]; simp, ?_, h3⟩
    have hcnt : UInt8.ofNat lineRepeat.toNat = lineRepeat := by simp
    rw [← hcnt]
    refine .row h h' lineRepeat.toNat hne (by omega) row done h5 ?_
    have : heightAfter h lineRepeat.toNat = (h + 2 ^ 64 - (lineRepeat.toNat + 1)) % 2 ^ 64 := by unfold heightAfter; omega
    rw [← this]; exact h2
  | case4 => cases hd
  | case5 => cases hd
  | case6 h out hne lineRepeat rest hx =>
    obtain ⟨hu, code, rest', total, h1, h2, h3⟩ := hang_of_decodeLine hx
    exact ⟨hu, [], h, lineRepeat, code, rest', total, by rw [h1]; rfl, .none h, hne, h2, h3⟩

/-- Exactly when decoding does not end. -/
theorem decodeRows_hang_iff (c w : Nat) (urf : Bool) (h : Nat) (out file : Bytes) : decodeRows c w urf h out file = .hang ↔
    urf = true ∧ ∃ done h' k code rest total, file = done ++ k :: (code ++ 128 :: rest) ∧ Spec.WholeRows c w true h done h' ∧
      h' ≠ 0 ∧ Spec.Inside c w true 0 code total ∧ Spec.Stuck c w total := by
  refine ⟨hang_of_decodeRows, ?_⟩
  rintro ⟨rfl, done, h', k, code, rest, total, rfl, h2, h3, h4, h5⟩
  obtain ⟨out', hr⟩ := decodeRows_wholeRows h2 out (k :: (code ++ 128 :: rest))
  rw [hr]
  have hl := decodeLine_hang_of h4 [] rest rfl h5
  unfold decodeRows
  rw [if_neg h3]
  simp only
  split <;> rename_i h6 <;> rw [hl] at h6 <;> cases h6

theorem decodeLine_not_ub (c w : Nat) (urf : Bool) (line file : Bytes) : decodeLine c w urf line file ≠ .ub := by
  fun_induction decodeLine c w urf line file with
  | case1 => simp
  | case2 => simp
  | case3 line hne count rest hc =>
    intro h
    unfold fillWhite at h
    simp only at h
    split at h <;> cases h
  | case4 line hne count rest hc hlt y hy ih => exact ih
  | case8 line hne count rest hc hlt y hy ih => exact ih
  | case6 line hne count rest hc hlt hy => unfold rdBytes at hy; split at hy <;> cases hy
  | case10 line hne count rest hc hlt hy => unfold rdBytes at hy; split at hy <;> cases hy
  | _ => simp

theorem decodeRows_not_ub (c w : Nat) (urf : Bool) (h : Nat) (out file : Bytes) : decodeRows c w urf h out file ≠ .ub := by
  fun_induction decodeRows c w urf h out file with
  | case3 h out hne lineRepeat rest x hx ih => exact ih
  | case5 h out hne lineRepeat rest hx => exact absurd hx (decodeLine_not_ub _ _ _ _ _)
  | _ => simp

end Verif.Raster
