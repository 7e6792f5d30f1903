import Verif.Core.Bytes

/-!
# Model of the raster line codec (lib/ppm2pwg.cpp 108-177, lib/pwg2ppm.cpp 5-56)
-/

set_option linter.unusedVariables false

namespace Verif.Raster

/-! ## Encoder -/

/-- The chunks of `[raw, raw+len)`: the code moves its pointers by `oneChunk` only and stops when
`pos == epos`. If `oneChunk` does not divide `len`, the pointer runs past `epos` (undefined behaviour);
if `oneChunk` is 0 it never moves (endless loop). -/
def chunksOf (c : Nat) (raw : Bytes) : Outcome (List Bytes) :=
  if raw = [] then .ok []
  else if c = 0 then .hang
  else if raw.length < c then .ub
  else do
    let r ← chunksOf c (raw.drop c)
    return raw.take c :: r
termination_by raw.length
decreasing_by simp only [List.length_drop]; have := List.length_pos_iff.mpr ‹raw ≠ []›; omega

/-- ppm2pwg.cpp 122-132: counts the chunks that equal `cur`, starting from `pos`; at most 127.
Returns the count (`repeat`) and the chunks from the new `pos` on. -/
def scanRepeat (cur : Bytes) : List Bytes → Nat → Nat × List Bytes
  | [], n => (n, [])
  | x :: xs, n =>
    if x = cur then
      if n + 1 = 127 then (n + 1, xs) else scanRepeat cur xs (n + 1)
    else (n, x :: xs)

/-- ppm2pwg.cpp 141-151, the do-while loop: `pos` is at the head of the list, `v` is `verbatim`.
Returns `verbatim` and the chunks from the new `pos` on. -/
def scanVerbatim : List Bytes → Nat → Nat × List Bytes
  | [], v => (v, [])   -- not reached: the loop is entered with `pos != epos`
  | x :: xs, v =>
    if v + 1 = 127 then (v + 1, xs)
    else match xs with
      | [] => (v + 1, [])
      | y :: ys => if y ≠ x then scanVerbatim (y :: ys) (v + 1) else (v + 1, y :: ys)

/-- ppm2pwg.cpp 156-159: `verbatim` after the loop, minus one unless at the end of the line. -/
def verbatimCount (rest : List Bytes) : Nat :=
  let (v, left) := scanVerbatim rest 1
  if left = [] then v else v - 1

theorem scanRepeat_length (cur : Bytes) (xs : List Bytes) (n : Nat) :
    (scanRepeat cur xs n).2.length ≤ xs.length := by
  induction xs generalizing n with
  | nil => simp [scanRepeat]
  | cons x xs ih =>
    simp only [scanRepeat]
    split
    · split
      · simp
      · have := ih (n + 1); simp; omega
    · simp

theorem scanVerbatim_ge (xs : List Bytes) (v : Nat) (hx : xs ≠ []) : v + 1 ≤ (scanVerbatim xs v).1 := by
  fun_induction scanVerbatim xs v with
  | case1 => contradiction
  | case2 => simp
  | case3 => simp
  | case4 x v h y ys hne ih => have := ih (by simp); omega
  | case5 => simp

/-- `compress_line` on the chunks of a line, ppm2pwg.cpp 114-176. -/
def compressChunks : List Bytes → Bytes
  | [] => []
  | cur :: rest =>
    if rest = [] ∨ rest.head? = some cur then
      -- 122-134: repeating chunk
      let r := scanRepeat cur rest 0
      UInt8.ofNat r.1 :: cur ++ compressChunks r.2
    else
      let v := verbatimCount rest
      if v = 1 then
        -- 163-168: one chunk
        0 :: cur ++ compressChunks rest
      else
        -- 169-174: `verbatim` chunks
        UInt8.ofNat (257 - v) :: ((cur :: rest).take v).flatten ++ compressChunks ((cur :: rest).drop v)
termination_by l => l.length
decreasing_by
  · have := scanRepeat_length cur rest 0; simp; omega
  · simp
  · rename_i h1 h2
    have hne : rest ≠ [] := fun h => h1 (Or.inl h)
    have h3 := scanVerbatim_ge rest 1 hne
    have : 1 ≤ v := by simp only [v, verbatimCount]; split <;> omega
    simp; omega

/-- `compress_line(raw, len, outBts, oneChunk)`: what it appends to `outBts`. -/
def compressLine (c : Nat) (raw : Bytes) : Outcome Bytes := do
  let cs ← chunksOf c raw
  return compressChunks cs

/-! ## Decoder -/

/-- pwg2ppm.cpp 8-11 -/
def whiteFor (colors : Nat) : Bytes :=
  if colors = 1 then [0] else if colors = 4 then [0, 0, 0, 0] else [0xff, 0xff, 0xff]

/-- pwg2ppm.cpp 26-29: `while(line.size() != byteWidth) line << white;`. If the size is never hit
exactly the loop does not end. -/
def fillWhite (colors byteWidth : Nat) (line : Bytes) : Outcome Bytes :=
  let w := whiteFor colors
  if line.length ≤ byteWidth ∧ (byteWidth - line.length) % w.length = 0 then
    .ok (line ++ (List.replicate ((byteWidth - line.length) / w.length) w).flatten)
  else .hang

theorem rdBytes_length {n : Nat} {s : Bytes} {x : Bytes × Bytes} (h : rdBytes n s = .ok x) :
    x.2.length ≤ s.length := by
  have := rdBytes_ok (x := x.1) (r := x.2) h
  rw [this.1]; simp

/-- pwg2ppm.cpp 19-46: reads runs until the line has `byteWidth` bytes. `file` is what remains to be
read; the result is the line and what then remains. -/
def decodeLine (colors byteWidth : Nat) (urf : Bool) (line file : Bytes) : Outcome (Bytes × Bytes) :=
  if line.length = byteWidth then .ok (line, file)
  else match file with
    | [] => .throws .outOfRange
    | count :: rest =>
      if urf = true ∧ count = 128 then do
        let l ← fillWhite colors byteWidth line
        return (l, rest)
      else if count < 128 then
        match h : rdBytes colors rest with
        | .ok x => decodeLine colors byteWidth urf
            (line ++ (List.replicate (count.toNat + 1) x.1).flatten) x.2
        | .throws e => .throws e
        | .ub => .ub
        | .hang => .hang
      else
        match h : rdBytes ((257 - count.toNat) * colors) rest with
        | .ok x => decodeLine colors byteWidth urf (line ++ x.1) x.2
        | .throws e => .throws e
        | .ub => .ub
        | .hang => .hang
termination_by file.length
decreasing_by
  · have := rdBytes_length h; simp; omega
  · have := rdBytes_length h; simp; omega

theorem decodeLine_length {colors byteWidth : Nat} {urf : Bool} {line file : Bytes} {x : Bytes × Bytes}
    (h : decodeLine colors byteWidth urf line file = .ok x) : x.2.length ≤ file.length := by
  fun_induction decodeLine colors byteWidth urf line file with
  | case1 => cases h; simp
  | case2 => cases h
  | case3 line hne count rest hc =>
    rw [Outcome.bind_eq_ok] at h
    obtain ⟨a, _, h⟩ := h; cases h; simp
  | case4 line hne count rest hc hlt y hy ih =>
    have := ih h; have := rdBytes_length hy; simp; omega
  | case8 line hne count rest hc hlt y hy ih =>
    have := ih h; have := rdBytes_length hy; simp; omega
  | _ => cases h

/-- pwg2ppm.cpp 49, 54: `height--; height -= lineRepeat;` on a 64-bit `size_t`. -/
def heightAfter (height lineRepeat : Nat) : Nat :=
  (height + 2 ^ 65 - 1 - lineRepeat) % 2 ^ 64

/-- pwg2ppm.cpp 13-55, the whole page: appends lines to `out` while `height` is not 0. -/
def decodeRows (colors byteWidth : Nat) (urf : Bool) (height : Nat) (out file : Bytes) :
    Outcome (Bytes × Bytes) :=
  if height = 0 then .ok (out, file)
  else match file with
    | [] => .throws .outOfRange
    | lineRepeat :: rest =>
      match h : decodeLine colors byteWidth urf [] rest with
      | .ok x => decodeRows colors byteWidth urf (heightAfter height lineRepeat.toNat)
          (out ++ (List.replicate (lineRepeat.toNat + 1) x.1).flatten) x.2
      | .throws e => .throws e
      | .ub => .ub
      | .hang => .hang
termination_by file.length
decreasing_by have := decodeLine_length h; simp; omega

/-- `raster_to_bmp(outBts, file, byteWidth, height, colors, urf)` with an empty `outBts`
(pwg2ppm_main.cpp resets it after each page): the bitmap, and the rest of the file. -/
def rasterToBmp (file : Bytes) (byteWidth height colors : Nat) (urf : Bool) : Outcome (Bytes × Bytes) :=
  decodeRows colors byteWidth urf height [] file

end Verif.Raster
