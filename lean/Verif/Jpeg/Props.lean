import Verif.Jpeg.Model

/-!
# Property C80: JPEG files are made baseline without loss
-/

namespace Verif.Jpeg

/-! ## Specification -/

namespace Spec

/-- What a reader comes to on plain bytes: none if it takes a byte where there is none. -/
def means {α : Type} : Reader α → Bytes → Option (Option α)
  | .done a, _ => some (some a)
  | .error, _ => some none
  | .take _, [] => none
  | .take k, b :: bs => means (k b) bs
  | .skip n k, bs => means k (bs.drop n)

/-- The file is read as the picture. -/
def Reads (lib : Library) (file : Bytes) (pic : Picture) : Prop := means lib.reader file = some (some pic)

/-- What libjpeg can read it can also write so that it reads it again, also with fewer markers (when it is told to write none of its own). -/
def Sound (lib : Library) : Prop := ∀ file pic ms, Reads lib file pic → ms.Sublist pic.markers →
  Reads lib (lib.bytes false false { pic with markers := ms }) { pic with markers := ms }

/-- The color spaces of JPEG files with three or four components -/
inductive Space where
  | rgb | ycc | cmyk | ycck | gray | unknown
  deriving DecidableEq, Repr

/-- The transform byte of the Adobe marker (APP14), if there is one: Adobe Technical Note 5116. -/
def adobe (ms : List Marker) : Option Nat :=
  match ms.filter (fun m => m.code = 0xEE ∧ m.data.take 5 = ascii "Adobe") with
  | m :: _ => (m.data[11]?).map UInt8.toNat
  | [] => none

/-- There is a JFIF marker. -/
def jfif (ms : List Marker) : Bool := ms.any (fun m => m.code = 0xE0 ∧ m.data.take 5 = ascii "JFIF" ++ [0])

/-- The color space as programs guess it from the components and markers (libjpeg's `default_decompress_parms`). -/
def space (ids : List Nat) (ms : List Marker) : Space :=
  match ids.length with
  | 1 => .gray
  | 3 => if jfif ms then .ycc else match adobe ms with
    | some 0 => .rgb
    | some _ => .ycc
    | none => if ids = [82, 71, 66] then .rgb else .ycc
  | 4 => match adobe ms with
    | some 2 => .ycck
    | some 0 => .cmyk
    | some _ => .ycck
    | none => .cmyk
  | _ => .unknown

end Spec

open Verif.Jpeg.Spec

/-! ## Proofs -/

theorem take_eq (s : Source) : s.take = match s.data[s.next]? with
    | some b => .ok (some (b, { s with next := s.next + 1, left := (s.left + (sizeMod - 1)) % sizeMod }))
    | none => .ub := by
  unfold Source.take Source.fill
  by_cases h : s.left = 0
  · rw [if_pos h]; rfl
  · rw [if_neg h]; rfl

theorem run_eq {α : Type} (r : Reader α) (s : Source) : r.run s = match means r (s.data.drop s.next) with
    | some a => .ok a
    | none => .ub := by
  induction r generalizing s with
  | done a => rfl
  | error => rfl
  | take k ih =>
    simp only [Reader.run, take_eq]
    cases h : s.data[s.next]? with
    | none =>
      have : s.data.drop s.next = [] := by
        rw [List.getElem?_eq_none_iff] at h
        exact List.drop_eq_nil_of_le h
      rw [this]; rfl
    | some b =>
      have : s.data.drop s.next = b :: s.data.drop (s.next + 1) := by
        obtain ⟨h1, h2⟩ := List.getElem?_eq_some_iff.mp h
        rw [List.drop_eq_getElem_cons h1, h2]
      rw [this]
      simp only [ih, means]
  | skip n k ih =>
    simp only [Reader.run, ih, means, List.drop_drop]
    rfl

/-- What the destination manager holds: the bytes of the output so far are those passed on and those at the front of the buffer. -/
structure Holds (size : Nat) (d : Dest) (bytes : Bytes) : Prop where
  length : d.buffer.length = size
  room : 0 < d.free ∧ d.free ≤ size
  all : d.out ++ d.buffer.take (size - d.free) = bytes

theorem put_holds {size : Nat} {d : Dest} {bytes : Bytes} (h : Holds size d bytes) (b : UInt8) : Holds size (d.put b) (bytes ++ [b]) := by
  obtain ⟨h1, ⟨h2, h3⟩, h4⟩ := h
  have key : (d.buffer.set (size - d.free) b).take (size - d.free + 1) = d.buffer.take (size - d.free) ++ [b] := by
    have hl : size - d.free < (d.buffer.set (size - d.free) b).length := by rw [List.length_set]; omega
    rw [List.take_add_one, List.getElem?_eq_getElem hl, List.getElem_set_self, List.take_set_of_le (by omega)]
    rfl
  unfold Dest.put
  simp only [h1]
  split
  · rename_i h0
    unfold Dest.empty
    refine ⟨by simpa using h1, ?_, ?_⟩
    · simp only [List.length_set, h1]; omega
    · simp only [List.length_set, h1, Nat.sub_self, List.take_zero, List.append_nil]
      have : size - d.free + 1 = size := by omega
      rw [this, List.take_of_length_le (by rw [List.length_set]; omega)] at key
      rw [key, ← List.append_assoc, h4]
  · rename_i h0
    refine ⟨by simpa using h1, by simp only; omega, ?_⟩
    simp only
    rw [show size - (d.free - 1) = size - d.free + 1 by omega, key, ← List.append_assoc, h4]

theorem foldl_holds {size : Nat} {d : Dest} {bytes : Bytes} (h : Holds size d bytes) (more : Bytes) : Holds size (more.foldl Dest.put d) (bytes ++ more) := by
  induction more generalizing d bytes with
  | nil => simpa using h
  | cons b bs ih =>
    rw [List.foldl_cons]
    have := ih (put_holds h b)
    rwa [List.append_assoc] at this

/-! ## Theorems -/

/-- C80, input: a reader gets the bytes of the input, in order and without those it skips, as long as it takes only bytes that are there; and
if it takes another one, memory outside of the input is read. -/
theorem C80_source {α : Type} (r : Reader α) (data : Bytes) :
    (∀ a, r.run (Source.make data) = .ok a ↔ means r data = some a) ∧ (r.run (Source.make data) = .ub ↔ means r data = none) := by
  rw [run_eq]
  simp only [Source.make, List.drop_zero]
  cases means r data with
  | none => exact ⟨fun a => ⟨fun h => (by cases h), fun h => (by cases h)⟩, ⟨fun _ => rfl, fun _ => rfl⟩⟩
  | some x => exact ⟨fun a => ⟨fun h => (by cases h; rfl), fun h => (by cases h; rfl)⟩, ⟨fun h => (by cases h), fun h => (by cases h)⟩⟩

/-- C80, output: whatever is written, all of it comes after what was in the output already, in order, for any size of the buffer. -/
theorem C80_destination {buffer : Bytes} (hb : buffer ≠ []) (out bytes : Bytes) : (Dest.make buffer out).write bytes = out ++ bytes := by
  have hl : 0 < buffer.length := List.length_pos_iff.mpr hb
  have h0 : Holds buffer.length (Dest.make buffer out) out := ⟨rfl, ⟨hl, Nat.le_refl _⟩, by simp [Dest.make]⟩
  have h := foldl_holds h0 bytes
  unfold Dest.write Dest.term
  rw [h.length, h.all]

/-- C80: the picture of a file that libjpeg can read is in the output: with all that matters for decoding, with the same coefficients, and with its JFIF and Exif
markers, in order. Missing: files that libjpeg can not read (`C80_exit_false`) or that end too early (`C80_cut_false`). -/
theorem C80_picture_partial {lib : Library} (hl : Sound lib) {buffer : Bytes} (hb : buffer ≠ []) {file : Bytes} {pic : Picture} (hr : Reads lib file pic)
    (out : Bytes) : ∃ bytes pic', baselinify lib buffer file out = .ok (.written (out ++ bytes)) ∧ Reads lib bytes pic' ∧
      pic'.critical = pic.critical ∧ pic'.ids = pic.ids ∧ pic'.coefs = pic.coefs ∧
      pic'.markers.Sublist pic.markers ∧ ∀ m ∈ pic.markers, m.code = 0xE0 ∨ m.code = 0xE1 → pic'.markers.count m = pic.markers.count m := by
  have h := ((C80_source lib.reader file).1 (some pic)).mpr hr
  unfold baselinify
  rw [h]
  simp only [C80_destination hb]
  refine ⟨_, _, rfl, hl _ _ _ hr List.filter_sublist, rfl, rfl, rfl, List.filter_sublist, fun m hm hc => ?_⟩
  exact List.count_filter (by simpa using hc)

theorem filter_jfif {f : Marker → Bool} (hf : ∀ m : Marker, m.code = 0xE0 → f m = true) (ms : List Marker) : jfif (ms.filter f) = jfif ms := by
  induction ms with
  | nil => rfl
  | cons m ms ih =>
    unfold jfif at ih ⊢
    rw [List.filter_cons]
    split
    · rw [List.any_cons, List.any_cons, ih]
    · rename_i h
      rw [List.any_cons, ih]
      have : m.code ≠ 0xE0 := fun h' => h (hf m h')
      simp [this]

theorem adobe_none {ms : List Marker} (h : ∀ m ∈ ms, m.code ≠ 0xEE) : adobe ms = none := by
  unfold adobe
  rw [List.filter_eq_nil_iff.mpr (by intro m hm; simp [h m hm])]

/-- C80, colors: afterwards the colors are shown as if there were no Adobe marker; so they stay the same if there is none, or if it says what is assumed
without it. Missing: other Adobe markers (`C80_colors_false`). -/
theorem C80_colors_partial {lib : Library} (hl : Sound lib) {buffer : Bytes} (hb : buffer ≠ []) {file : Bytes} {pic : Picture} (hr : Reads lib file pic)
    (out : Bytes) : ∃ bytes pic', baselinify lib buffer file out = .ok (.written (out ++ bytes)) ∧ Reads lib bytes pic' ∧
      space pic'.ids pic'.markers = space pic.ids (pic.markers.filter (fun m => m.code ≠ 0xEE)) := by
  have h := ((C80_source lib.reader file).1 (some pic)).mpr hr
  unfold baselinify
  rw [h]
  simp only [C80_destination hb]
  refine ⟨_, _, rfl, hl _ _ _ hr List.filter_sublist, ?_⟩
  unfold space
  simp only
  rw [filter_jfif (by intro m h; simp [h]), filter_jfif (by intro m h; simp [h]),
    adobe_none (ms := pic.markers.filter (fun m => m.code = 0xE0 ∨ m.code = 0xE1)) (by
      intro m hm
      have := (List.mem_filter.mp hm).2
      simp only [decide_eq_true_eq] at this
      omega),
    adobe_none (ms := pic.markers.filter (fun m => m.code ≠ 0xEE)) (by
      intro m hm
      simpa using (List.mem_filter.mp hm).2)]

/-! ## What does not hold, and examples -/

/-- A toy libjpeg, for examples: a length, then the numbers of a picture's markers and so on are all read from a table. A file is `255, 216`, the
number of an entry, and `217`. -/
def toyTable : List Picture :=
  [{ critical := [1], ids := [1, 2, 3, 4], coefs := [9, 8], markers := [⟨0xEE, ascii "Adobe" ++ [0, 100, 0, 0, 0, 0, 2]⟩] },
   { critical := [1], ids := [1, 2, 3, 4], coefs := [9, 8], markers := [] }]

/-- It takes bytes, and skips one. -/
def toy : Library where
  reader := .take fun _ => .skip 1 (.take fun i => .take fun e => if e = 217 then match toyTable[i.toNat]? with
    | some p => .done p
    | none => .error
    else .error)
  bytes := fun _ _ p => [255, 216, UInt8.ofNat (toyTable.idxOf p), 217]

theorem toy_reads {file : Bytes} {pic : Picture} (h : Reads toy file pic) : pic ∈ toyTable := by
  unfold Reads toy at h
  match file with
  | [] => cases h
  | [a] => cases h
  | [a, b] => cases h
  | [a, b, i] => cases h
  | a :: b :: i :: e :: _ =>
    simp only [means, List.drop_succ_cons, List.drop_zero] at h
    split at h
    · cases ht : toyTable[i.toNat]? with
      | none => rw [ht] at h; cases h
      | some p =>
        rw [ht] at h
        cases h
        exact List.mem_of_getElem? ht
    · cases h

/-- The hypotheses can be met: the toy is sound, and reads a file. -/
theorem toy_sound : Sound toy := by
  intro file pic ms hr hs
  have hm := toy_reads hr
  have : ({ pic with markers := ms } : Picture) ∈ toyTable := by
    simp only [toyTable, List.mem_cons, List.not_mem_nil, or_false] at hm
    rcases hm with rfl | rfl
    · cases ms with
      | nil => simp [toyTable]
      | cons m ms =>
        have h1 := hs.length_le
        have : ms = [] := by cases ms with
          | nil => rfl
          | cons _ _ => simp at h1
        subst this
        have h2 := List.singleton_sublist.mp hs
        simp only [List.mem_cons, List.not_mem_nil, or_false] at h2
        subst h2
        simp [toyTable]
    · simp only [List.sublist_nil] at hs
      subst hs
      simp [toyTable]
  have key : ∀ p ∈ toyTable, means toy.reader (toy.bytes false false p) = some (some p) := by
    intro p hp
    simp only [toyTable, List.mem_cons, List.not_mem_nil, or_false] at hp
    rcases hp with rfl | rfl <;> decide +kernel
  exact key _ this

/-- C80 is false of the colors of files with an Adobe marker: it is not kept, so that for example YCCK is taken for CMYK. -/
theorem C80_colors_false : ∃ (lib : Library) (file bytes : Bytes) (pic pic' : Picture), Sound lib ∧ Reads lib file pic ∧
    baselinify lib [0] file [] = .ok (.written bytes) ∧ Reads lib bytes pic' ∧ space pic.ids pic.markers = .ycck ∧ space pic'.ids pic'.markers = .cmyk :=
  ⟨toy, [255, 216, 0, 217], [255, 216, 1, 217], _, _, toy_sound, rfl, by decide +kernel, rfl, by decide +kernel, by decide +kernel⟩

/-- C80 is false of files that are cut off: memory outside of the file is read. (The full claim would be that this is an error.) -/
theorem C80_cut_false : ∃ (lib : Library) (file : Bytes) (pic : Picture), Sound lib ∧ Reads lib file pic ∧ baselinify lib [0] (file.take 2) [] = .ub :=
  ⟨toy, [255, 216, 0, 217], _, toy_sound, rfl, rfl⟩

/-- C80 is false of files that libjpeg finds wrong: the program ends (also ippclient, in the middle of printing). -/
theorem C80_exit_false : ∃ (lib : Library) (file : Bytes), Sound lib ∧ means lib.reader file = some none ∧ baselinify lib [0] file [] = .ok .exited :=
  ⟨toy, [255, 216, 0, 0], toy_sound, rfl, rfl⟩

example : Reads toy [255, 216, 1, 217] ⟨[1], [1, 2, 3, 4], [9, 8], []⟩ := rfl

/-- Three bytes through a buffer of two. -/
example : (Dest.make [0, 0] [7]).write [1, 2, 3] = [7, 1, 2, 3] := C80_destination (by simp) _ _

end Verif.Jpeg
