import Verif.Raster.AnyDoc

/-!
# How large the pictures can be that pwg2ppm makes of a file (lib/pwg2ppm.cpp, utils/pwg2ppm_main.cpp); property C116

A property of the model in `Codec.lean` and `Cut.lean`, for any file.
-/

namespace Verif.Raster

/-! ## Specification -/

namespace Spec

/-- The number of bytes in files, without their names -/
def totalSize : List (Bytes × Bytes) → Nat
  | [] => 0
  | f :: fs => f.2.length + totalSize fs

/-- The claim that the pictures of any file, PWG or URF, are at most 32768 times as large (128 pixels for one, 256 rows for one). -/
def C116_raster : Prop := ∀ pre file, totalSize (pwg2ppmRun pre file).1 ≤ 32768 * file.length

end Spec

open Verif.Raster.Spec

/-! ## Proofs: PWG -/

theorem flatten_replicate_length (n : Nat) (l : Bytes) : (List.replicate n l).flatten.length = n * l.length := by
  simp [List.length_flatten]

theorem decodeLine_growth {c w : Nat} {line file : Bytes} {x : Bytes × Bytes} (h : decodeLine c w false line file = .ok x) :
    x.1.length + 128 * x.2.length ≤ line.length + 128 * file.length := by
  fun_induction decodeLine c w false line file with
  | case1 => cases h; exact Nat.le_refl _
  | case2 => cases h
  | case3 line hne count rest hc => exact absurd hc.1 (by decide)
  | case4 line hne count rest hc hlt y hy ih =>
    have i := ih h
    have l1 := rdBytes_length_eq hy
    have l2 := (rdBytes_ok (x := y.1) (r := y.2) hy).2
    rw [List.length_append, flatten_replicate_length, l2] at i
    have l3 : count.toNat + 1 ≤ 128 := by
      have := UInt8.lt_iff_toNat_lt.mp hlt
      change _ < 128 at this
      omega
    have l4 := Nat.mul_le_mul_right c l3
    rw [List.length_cons]
    omega
  | case8 line hne count rest hc hlt y hy ih =>
    have i := ih h
    have l1 := rdBytes_length_eq hy
    have l2 := (rdBytes_ok (x := y.1) (r := y.2) hy).2
    rw [List.length_append, l2] at i
    rw [List.length_cons]
    omega
  | _ => cases h

theorem decodeRows_growth {c w height : Nat} {out file : Bytes} {x : Bytes × Bytes} (h : decodeRows c w false height out file = .ok x) :
    x.1.length + 32768 * x.2.length ≤ out.length + 32768 * file.length := by
  fun_induction decodeRows c w false height out file with
  | case1 => cases h; exact Nat.le_refl _
  | case2 => cases h
  | case3 height out hh lineRepeat rest y hy ih =>
    have i := ih h
    have l1 := decodeLine_growth hy
    rw [List.length_append, flatten_replicate_length] at i
    have l3 : lineRepeat.toNat + 1 ≤ 256 := lineRepeat.toNat_lt
    have l4 := Nat.mul_le_mul_right y.1.length l3
    rw [List.length_nil] at l1
    rw [List.length_cons]
    omega
  | _ => cases h

theorem dec_short {n : Nat} (h : n < 2 ^ 32) : (dec n).length ≤ 10 := by
  have step : ∀ k m, m < 10 ^ (k + 1) → (dec m).length ≤ k + 1 := by
    intro k
    induction k with
    | zero => intro m hm; unfold dec; rw [if_pos (by simpa using hm)]; simp
    | succ k ih =>
      intro m hm
      unfold dec
      split
      · simp
      · rw [List.length_append]
        have := ih (m / 10) (by rw [Nat.pow_succ] at hm; omega)
        simp; omega
  exact step 9 n (by omega)

theorem cmyk2rgb_short (b : Bytes) : (cmyk2rgb b).length ≤ b.length := by
  fun_induction cmyk2rgb b with
  | case1 c m y k rest ih =>
    simp only [List.length_append, List.length_cons]
    have : (cmykPixelToRgb c m y k).length = 3 := rfl
    omega
  | case2 => simp

/-- A picture is not larger than its bitmap but for the lines before it. -/
theorem writePpm_size (o : PageOut) (hw : o.width < 2 ^ 32) (hh : o.height < 2 ^ 32) : (writePpm o).2.length ≤ o.bmp.length + 29 := by
  have l1 := dec_short hw
  have l2 := dec_short hh
  have e1 : (ascii "P6").length = 2 := by decide
  have e2 : (ascii "P5").length = 2 := by decide
  have e3 : (ascii "P4").length = 2 := by decide
  have e4 : (ascii "\n255\n").length = 5 := by decide
  have e5 : (ascii "\n").length = 1 := by decide
  have e6 : (ascii " ").length = 1 := by decide
  have hb : (if o.bits = 1 ∧ !o.black then invert o.bmp else if o.colors = 4 then cmyk2rgb o.bmp else o.bmp).length ≤ o.bmp.length := by
    split
    · simp [invert]
    · split
      · exact cmyk2rgb_short _
      · exact Nat.le_refl _
  have hm : (if o.colors > 2 then ascii "P6" else if o.bits = 8 then ascii "P5" else ascii "P4").length = 2 := by
    split
    · exact e1
    · split <;> assumption
  unfold writePpm
  simp only [List.length_append, hm, e4, e5, e6]
  omega

theorem pwgPage_growth {file : Bytes} {x : PageOut × Bytes} (h : readPwgPage file = .ok x) :
    (writePpm x.1).2.length + 32768 * x.2.length ≤ 32768 * file.length := by
  obtain ⟨a, h1, h2⟩ := Outcome.bind_eq_ok.mp h
  obtain ⟨b, h3, h4⟩ := Outcome.bind_eq_ok.mp h2
  have hc := PwgHdr.decode_consumes _ _ h1
  have hl : 1796 ≤ file.length := by omega
  obtain ⟨hd, g1, g2, g3, -⟩ := pwg_decode hl
  rw [g1] at h1
  cases h1
  cases h4
  have g4 := decodeRows_growth h3
  have g5 := writePpm_size ⟨hd.Width, hd.Height, hd.NumColors, hd.BitsPerColor, hd.ColorSpace == 3, b.1⟩ (by rw [g2]; exact u32At_lt _ _) (by rw [g3]; exact u32At_lt _ _)
  simp only [List.length_nil, List.length_drop] at g4 g5 ⊢
  omega

theorem writePages_growth {page : Bytes → Outcome (PageOut × Bytes)} {hp : ∀ s x, page s = .ok x → x.2.length < s.length} {k : Nat}
    (hk : ∀ s x, page s = .ok x → (writePpm x.1).2.length + k * x.2.length ≤ k * s.length) (pre : Bytes) (n : Nat) (file : Bytes) :
    totalSize (writePages page hp pre n file).1 ≤ k * file.length := by
  fun_induction writePages page hp pre n file with
  | case1 => simp [totalSize]
  | case2 n file hne x hx r ih =>
    have := hk _ _ hx
    show (writePpm x.1).2.length + totalSize (writePages page hp pre (n + 1) x.2).1 ≤ _
    omega
  | _ => simp [totalSize]

/-! ## Proofs: URF -/

theorem decodeRows_wide {c w height : Nat} {urf : Bool} {out file : Bytes} {x : Bytes × Bytes} (hw : w < 2 ^ 32) (h : decodeRows c w urf height out file = .ok x) :
    x.1.length + 2 ^ 40 * x.2.length ≤ out.length + 2 ^ 40 * file.length := by
  fun_induction decodeRows c w urf height out file with
  | case1 => cases h; exact Nat.le_refl _
  | case2 => cases h
  | case3 height out hh lineRepeat rest y hy ih =>
    have i := ih h
    have l1 := decodeLine_size _ _ _ _ _ _ hy
    have l2 := decodeLine_length hy
    rw [List.length_append, flatten_replicate_length, l1] at i
    have l3 : lineRepeat.toNat + 1 ≤ 256 := lineRepeat.toNat_lt
    have l4 := Nat.mul_le_mul l3 (Nat.le_of_lt hw)
    rw [List.length_cons]
    omega
  | _ => cases h

theorem urfPage_growth {file : Bytes} {x : PageOut × Bytes} (h : readUrfPage file = .ok x) :
    (writePpm x.1).2.length + 2 ^ 40 * x.2.length ≤ 2 ^ 40 * file.length := by
  obtain ⟨a, h1, h2⟩ := Outcome.bind_eq_ok.mp h
  obtain ⟨b, h3, h4⟩ := Outcome.bind_eq_ok.mp h2
  have hc := UrfHdr.decode_consumes _ _ h1
  have hl : 32 ≤ file.length := by omega
  obtain ⟨hd, g1, g2, g3, -⟩ := urf_decode hl
  rw [g1] at h1
  cases h1
  cases h4
  have g4 := decodeRows_wide (Nat.mod_lt _ (by decide)) h3
  have g5 := writePpm_size ⟨hd.Width, hd.Height, hd.BitsPerPixel / 8, 8, false, b.1⟩ (by rw [g2]; exact u32At_lt _ _) (by rw [g3]; exact u32At_lt _ _)
  simp only [List.length_nil, List.length_drop] at g4 g5 ⊢
  omega

/-! ## Property C116 -/

/-- **C116**, PWG: the pictures made of a file, whole or damaged, are together at most 32768 times as large as the file. -/
theorem C116_pwg (pre file : Bytes) (h : [0x52, 0x61, 0x53, 0x32] <+: file) : totalSize (pwg2ppmRun pre file).1 ≤ 32768 * file.length := by
  obtain ⟨t, rfl⟩ := h
  have e : ([0x52, 0x61, 0x53, 0x32] : Bytes) = ascii "RaS2" := by decide
  unfold pwg2ppmRun
  rw [e, matchBytes_append]
  have := writePages_growth (hp := readPwgPage_lt) (fun _ _ => pwgPage_growth) pre 1 t
  rw [List.length_append]
  simp only
  omega

/-- **C116**, any file: the pictures are together at most 2^40 times as large. Missing: the factor of PWG, which is false here (`C116_urf_false`). -/
theorem C116_raster_partial (pre file : Bytes) : totalSize (pwg2ppmRun pre file).1 ≤ 2 ^ 40 * file.length := by
  unfold pwg2ppmRun
  split
  · rename_i t ht
    have := writePages_growth (hp := readPwgPage_lt) (fun _ _ => pwgPage_growth) pre 1 t
    rw [matchBytes_eq ht, List.length_append]
    omega
  · split
    · rename_i t ht
      have l := congrArg List.length (matchBytes_eq ht)
      rw [List.length_append] at l
      split
      · exact Nat.zero_le _
      · rename_i u hu
        have l' := congrArg List.length (matchBytes_eq hu)
        rw [List.length_append] at l'
        split
        · rename_i x hx
          have l'' : x.2.length ≤ u.length := by
            unfold rd32 at hx
            split at hx
            · cases hx; simp; omega
            · cases hx
          have := writePages_growth (hp := readUrfPage_lt) (fun _ _ => urfPage_growth) pre 1 x.2
          omega
        all_goals exact Nat.zero_le _
    · exact Nat.zero_le _

/-- A URF file with one page of 256 rows of one fill code -/
def fillFile (hdr : Bytes) : Bytes := [0x55, 0x4e, 0x49, 0x52, 0x41, 0x53, 0x54, 0] ++ ([0, 0, 0, 1] ++ (hdr ++ ([255, 128] ++ [])))

theorem fill_size (pre hdr : Bytes) (n : Nat) (hl : hdr.length = 32) (h8 : u8At hdr 0 = 24) (h1 : u8At hdr 1 = 1) (hw : u32At hdr 12 = n) (hh : u32At hdr 16 = 256)
    (hn : 0 < n) (hb : n * 3 < 2 ^ 32) : 256 * (n * 3) ≤ totalSize (pwg2ppmRun pre (fillFile hdr)).1 := by
  have hr : RowCode 3 true n [128] (List.replicate n (white 3)) := .fill _ hn rfl
  have hp : PageCode ((u8At hdr 0 + 7) / 8) (decide (u8At hdr 0 = 24)) (u32At hdr 12) (u32At hdr 16) [255, 128] (List.replicate 256 (List.replicate n (white 3)) ++ []) := by
    rw [h8, hw, hh]
    exact PageCode.rows (c := 3) 255 0 (by decide) [128] [] _ [] hr .done
  generalize hx : ((List.replicate 256 (List.replicate n (white 3)) ++ []).map List.flatten).flatten = px
  have l : px.length = 256 * (n * 3) := by
    rw [← hx, List.append_nil, List.map_replicate, flatten_replicate_length, flatten_replicate_length]
    rfl
  let g : PnmPage := { kind := .ppm8, comments := [], width := n, sep1 := [32], height := 256, sep2 := [10], last := 10, pixels := px }
  obtain ⟨hd, o, -, e1, e2⟩ := urf_page (more := []) (g := g) hl hp (by rw [h8, hw]; exact hb) ⟨hw, hh, .inr ⟨rfl, h8, h1⟩, hx.symm⟩
  have e : pwg2ppmRun pre (fillFile hdr) = writePages readUrfPage readUrfPage_lt pre 1 (hdr ++ ([255, 128] ++ [])) := by
    have : fillFile hdr = ascii "UNIRAST" ++ ([0] ++ ([0, 0, 0, 1] ++ (hdr ++ ([255, 128] ++ [])))) := by
      have : ([0x55, 0x4e, 0x49, 0x52, 0x41, 0x53, 0x54, 0] : Bytes) = ascii "UNIRAST" ++ [0] := by decide
      unfold fillFile
      rw [this, List.append_assoc]
    unfold pwg2ppmRun
    rw [this, show matchBytes (ascii "RaS2") _ = none from rfl]
    simp only [matchBytes_append]
    rfl
  rw [e]
  unfold writePages
  rw [if_neg (by simp)]
  split
  · rename_i y hy
    rw [e1] at hy
    cases hy
    rw [e2]
    show _ ≤ g.plain.bytes.length + _
    have : px.length ≤ g.plain.bytes.length := by
      unfold PnmPage.bytes
      simp only [List.length_append, List.length_cons]
      show px.length ≤ _ + (_ + (_ + (_ + (_ + (_ + (_ + (px.length + 1)))))))
      omega
    omega
  all_goals rename_i hy; rw [e1] at hy; cases hy

/-- The header of a URF page of 256 rows of 1431655765 pixels of 24 bits -/
def wideHeader : Bytes := [24, 1, 1, 0, 0, 0, 0, 0, 0, 0, 0, 0, 0x55, 0x55, 0x55, 0x55, 0, 0, 1, 0, 0, 0, 0, 0, 0, 0, 0, 0, 0, 0, 0, 0]

/-- A URF file of 46 bytes -/
def wideFile : Bytes := fillFile wideHeader

theorem wide_size (pre : Bytes) : wideFile.length = 46 ∧ 2 ^ 39 ≤ totalSize (pwg2ppmRun pre wideFile).1 := by
  refine ⟨by decide, ?_⟩
  have := fill_size pre wideHeader 1431655765 (by decide) (by decide) (by decide) (by decide +kernel) (by decide +kernel) (by decide) (by decide)
  unfold wideFile
  omega

/-- **C116** fails for URF: of the 46 bytes of `wideFile` a picture of more than 2^39 bytes is made, more than 2^33 times as much. -/
theorem C116_urf_false : ¬ C116_raster ∧ ∀ pre, wideFile.length = 46 ∧ 2 ^ 39 ≤ totalSize (pwg2ppmRun pre wideFile).1 := by
  refine ⟨fun h => ?_, wide_size⟩
  have h1 := h [] wideFile
  have h2 := wide_size []
  omega

/-- A PWG file whose page (2 gray pixels) is written: the bound is about something. -/
example : ∃ file : Bytes, [0x52, 0x61, 0x53, 0x32] <+: file ∧ totalSize (pwg2ppmRun [] file).1 = 13 :=
  ⟨ascii "RaS2" ++ ((List.range 1796).map fun i => if i = 375 then 2 else if i = 379 then 1 else if i = 387 then 8 else if i = 391 then 8 else if i = 395 then 2 else if i = 423 then 1 else 0) ++ [0, 1, 77],
    by decide +kernel, by decide +kernel⟩

end Verif.Raster
