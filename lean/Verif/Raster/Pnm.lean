import Verif.Core.Text
import Verif.Raster.Page

/-!
# Model of the PNM reader of ppm2pwg (utils/ppm2pwg_main.cpp)

An `std::istream` is represented by the bytes that remain. Extraction from an exhausted stream leaves the (empty) string
unchanged; `peek` then gives EOF.
-/

set_option linter.unusedVariables false

namespace Verif.Raster

/-- `istream >> std::string`: skips white space, then takes the characters up to the next white space. -/
def readToken (s : Bytes) : Bytes × Bytes :=
  let t := s.dropWhile isSpace
  (t.takeWhile (fun b => !isSpace b), t.dropWhile (fun b => !isSpace b))

/-- `in.ignore(max, '\n')`: drops everything up to and including the next newline. -/
def dropLine : Bytes → Bytes
  | [] => []
  | b :: r => if b = 10 then r else dropLine r

theorem dropLine_length (s : Bytes) : (dropLine s).length ≤ s.length := by
  induction s with
  | nil => simp [dropLine]
  | cons b r ih => simp only [dropLine]; split <;> simp <;> omega

/-- ppm2pwg_main.cpp 28-31 -/
def dropComments (s : Bytes) : Bytes :=
  match s with
  | [] => []
  | b :: r => if b = 35 then dropComments (dropLine r) else b :: r
termination_by s.length
decreasing_by have := dropLine_length r; simp; omega

/-- `ignore_comments`, ppm2pwg_main.cpp 22-32 -/
def ignoreComments (s : Bytes) : Bytes :=
  dropComments (if s.head? = some 10 then s.drop 1 else s)

/-- How ppm2pwg stops reading. -/
inductive PnmEnd where
  /-- end of input after a page: exit code 0 -/
  | done
  /-- an error message and exit code 1 -/
  | refused
  /-- an uncaught exception -/
  | threw (e : Exn)
  deriving DecidableEq, Repr

/-- ppm2pwg_main.cpp 181-234: magic, sizes and maximum value; gives the color mode. -/
def pnmMode (format : Format) (magic xs s : Bytes) : Except PnmEnd (ColorMode × Bytes) :=
  if magic = ascii "P6" then
    let (r, s) := readToken s
    if r = ascii "255" then .ok (.sRGB24, s)
    else if r = ascii "65535" then .ok (.sRGB48, s)
    else .error .refused
  else if magic = ascii "P5" then
    let (r, s) := readToken s
    if r = ascii "255" then .ok (.Gray8, s)
    else if r = ascii "65535" then .ok (.Gray16, s)
    else .error .refused
  else if magic = ascii "P4" then
    match stoul xs with
    | .ok x =>
      if x % 8 ≠ 0 then .error .refused
      else if format = .URF then .error .refused
      else .ok (.Black1, s)
    | .throws e => .error (.threw e)
    | _ => .error .refused -- stoul has no other outcomes
  else .error .refused

/-- ppm2pwg_main.cpp 174-242: everything before the pixels. `pt px res` stands for the rounded size in points
(printparameters.cpp 81-109; `Convert.pixelPoints`). Pixel counts are `double` in the code: exact below 2^53 (see Convert/Machine.lean). -/
def pnmHeader (pt : Nat → Nat → Nat) (p : Params) (s : Bytes) : Except PnmEnd (Params × Bytes) :=
  let (magic, s) := readToken s
  let s := ignoreComments s
  let (xs, s) := readToken s
  let (ys, s) := readToken s
  match pnmMode p.format magic xs s with
  | .error e => .error e
  | .ok (mode, s) =>
    let s := ignoreComments s
    match stoul xs, stoul ys with
    | .ok w, .ok h => .ok ({ p with colorMode := mode, widthPx := w, heightPx := h,
                                    widthPt := pt w p.hwResW, heightPt := pt h p.hwResH }, s)
    | .throws e, _ => .error (.threw e)
    | _, .throws e => .error (.threw e)
    | _, _ => .error .refused -- stoul has no other outcomes

theorem dropWhile_length {α : Type} (p : α → Bool) (l : List α) : (l.dropWhile p).length ≤ l.length := by
  induction l with
  | nil => simp
  | cons a l ih => rw [List.dropWhile_cons]; split <;> simp <;> omega

theorem readToken_length (s : Bytes) : (readToken s).2.length ≤ s.length := by
  unfold readToken
  have h1 := dropWhile_length (fun b => !isSpace b) (s.dropWhile isSpace)
  have h2 := dropWhile_length isSpace s
  simp only; omega

theorem readToken_lt (s : Bytes) (h : (readToken s).1 ≠ []) : (readToken s).2.length < s.length := by
  unfold readToken at *
  simp only at *
  have h2 := dropWhile_length isSpace s
  cases ht : s.dropWhile isSpace with
  | nil => rw [ht] at h; simp at h
  | cons a r =>
    rw [ht] at h h2
    have ha : (!isSpace a) = true := by
      rw [List.takeWhile_cons] at h
      split at h
      · assumption
      · exact absurd rfl h
    rw [List.dropWhile_cons, if_pos ha]
    have := dropWhile_length (fun b => !isSpace b) r
    simp at h2; omega

theorem dropComments_length (s : Bytes) : (dropComments s).length ≤ s.length := by
  fun_induction dropComments s with
  | case1 => simp
  | case2 r ih => have := dropLine_length r; simp; omega
  | case3 => simp

theorem ignoreComments_length (s : Bytes) : (ignoreComments s).length ≤ s.length := by
  unfold ignoreComments
  split
  · have := dropComments_length (s.drop 1)
    rw [List.length_drop] at this; omega
  · exact dropComments_length s

theorem pnmMode_spec {f : Format} {magic xs s s' : Bytes} {m : ColorMode} (h : pnmMode f magic xs s = .ok (m, s')) :
    magic ≠ [] ∧ s'.length ≤ s.length := by
  have hr := readToken_length s
  unfold pnmMode at h
  split at h
  · rename_i hm
    refine ⟨by rw [hm]; decide, ?_⟩
    simp only at h
    split at h
    · cases h; exact hr
    · split at h
      · cases h; exact hr
      · cases h
  · split at h
    · rename_i hm
      refine ⟨by rw [hm]; decide, ?_⟩
      simp only at h
      split at h
      · cases h; exact hr
      · split at h
        · cases h; exact hr
        · cases h
    · split at h
      · rename_i hm
        refine ⟨by rw [hm]; decide, ?_⟩
        split at h
        · split at h
          · cases h
          · split at h
            · cases h
            · cases h; exact Nat.le_refl _
        all_goals cases h
      · cases h

theorem pnmHeader_lt {pt : Nat → Nat → Nat} {p q : Params} {s s' : Bytes} (h : pnmHeader pt p s = .ok (q, s')) :
    s'.length < s.length := by
  unfold pnmHeader at h
  simp only at h
  split at h
  · cases h
  · rename_i mode s4 hm
    have ⟨h1, h2⟩ := pnmMode_spec hm
    have h3 := readToken_lt s h1
    have h4 := ignoreComments_length (readToken s).2
    have h5 := readToken_length (ignoreComments (readToken s).2)
    have h6 := readToken_length (readToken (ignoreComments (readToken s).2)).2
    have h7 := ignoreComments_length s4
    split at h
    · cases h; omega
    all_goals cases h

/-- ppm2pwg_main.cpp 169-253: one round of the loop per page; the pages handed to `bmp_to_pwg` and how it ends. What
`Bytestream(inFile, size)` does when less than `size` bytes are left is not known; modelled as an exception. -/
def readPnm (pt : Nat → Nat → Nat) (p : Params) (page : Nat) (s : Bytes) : List (Params × Nat × Bytes) × PnmEnd :=
  match h : pnmHeader pt p s with
  | .error e => ([], e)
  | .ok (q, s1) =>
    match q.widthBytes with
    | .ok row =>
      let size := q.heightPx * row
      if s1.length < size then ([], .threw .outOfRange)
      else
        let rest := s1.drop size
        if rest = [] then ([(q, page, s1.take size)], .done)
        else
          let r := readPnm pt q (page + 1) rest
          ((q, page, s1.take size) :: r.1, r.2)
    | .throws e => ([], .threw e)
    | _ => ([], .refused)
termination_by s.length
decreasing_by have := pnmHeader_lt h; simp; omega

end Verif.Raster
