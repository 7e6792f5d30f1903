import Verif.Core.Bytes

/-! # File types: lib/minimime.cpp -/

namespace Verif.Tools

/-! ## Model -/

/-- The types of minimime.h; `none` stands for the empty string. -/
inductive Mime where
  | none | octetStream | pdf | postscript | pwg | urf | png | gif | jpeg | tiff
  deriving DecidableEq, Repr

/-- `bts >>= "…"`: whether the data starts with the text, and the position behind it. A string literal ends at its first NUL when it becomes a string. -/
def startsWith (bts : Bytes) (literal : Bytes) : Bool := (matchBytes (literal.takeWhile (· ≠ 0)) bts).isSome

/-- `getMimeType`, lines 22-64, on the contents of the file (`Bytestream(ifs, 7)`: at most seven bytes of them; empty when it can not be opened). -/
def getMimeType (file : Bytes) : Mime :=
  let bts := file.take 7
  if bts.length = 0 then .none
  else if startsWith bts (ascii "%PDF") then .pdf
  else if startsWith bts (ascii "%!PS") then .postscript
  else if startsWith bts (ascii "RaS2") then .pwg
  else if startsWith bts (ascii "UNIRAST") then .urf
  else if startsWith bts (0x89 :: ascii "PNG") then .png
  else if startsWith bts (ascii "GIF8") then .gif
  else if startsWith bts [0xFF, 0xD8, 0xFF] then .jpeg
  else if startsWith bts [0x49, 0x49, 0x2A, 0x00] || startsWith bts [0x4D, 0x4D, 0x00, 0x2A] then .tiff
  else .octetStream

/-! ## Specification -/

/-- The magic numbers of the types, as in the sources and in the formats' specifications. -/
def Spec.magics : List (Mime × Bytes) :=
  [(.pdf, [37, 80, 68, 70]), (.postscript, [37, 33, 80, 83]), (.pwg, [82, 97, 83, 50]), (.urf, [85, 78, 73, 82, 65, 83, 84]),
   (.png, [0x89, 80, 78, 71]), (.gif, [71, 73, 70, 56]), (.jpeg, [0xFF, 0xD8, 0xFF]), (.tiff, [0x49, 0x49, 0x2A, 0]), (.tiff, [0x4D, 0x4D, 0, 0x2A])]

/-- The file starts with a magic number of this type. -/
def Spec.HasMagic (file : Bytes) (t : Mime) : Prop := ∃ m, (t, m) ∈ Spec.magics ∧ m <+: file

/-! ## Proofs -/

theorem startsWith_iff {file lit : Bytes} (h : (lit.takeWhile (· ≠ 0)).length ≤ 7) : startsWith (file.take 7) lit = true ↔ lit.takeWhile (· ≠ 0) <+: file := by
  unfold startsWith matchBytes
  generalize lit.takeWhile (· ≠ 0) = m at h
  by_cases hp : m.isPrefixOf (file.take 7) = true
  · rw [if_pos hp]
    simp only [Option.isSome_some, true_iff]
    exact (List.isPrefixOf_iff_prefix.1 hp).trans (List.take_prefix _ _)
  · rw [if_neg hp]
    simp only [Option.isSome_none, Bool.false_eq_true, false_iff]
    intro hm
    apply hp
    rw [List.isPrefixOf_iff_prefix, List.prefix_take_iff]
    exact ⟨hm, h⟩

/-- Two prefixes of one file agree where both are. -/
theorem prefix_clash {a b f : Bytes} (ha : a <+: f) (hb : b <+: f) : a <+: b ∨ b <+: a := List.prefix_or_prefix_of_prefix ha hb

/-- The texts that the comparisons really look for. -/
def Spec.looked : List (Mime × Bytes) :=
  [(.pdf, [37, 80, 68, 70]), (.postscript, [37, 33, 80, 83]), (.pwg, [82, 97, 83, 50]), (.urf, [85, 78, 73, 82, 65, 83, 84]),
   (.png, [0x89, 80, 78, 71]), (.gif, [71, 73, 70, 56]), (.jpeg, [0xFF, 0xD8, 0xFF]), (.tiff, [0x49, 0x49, 0x2A]), (.tiff, [0x4D, 0x4D])]

theorem looked_apart : ∀ x ∈ Spec.looked, ∀ y ∈ Spec.looked, x.2.isPrefixOf y.2 = true → x = y := by decide +kernel

theorem looked_unique {file : Bytes} {s t : Mime} {a b : Bytes} (ha : (s, a) ∈ Spec.looked) (hb : (t, b) ∈ Spec.looked) (ha' : a <+: file)
    (hb' : b <+: file) : s = t := by
  rcases prefix_clash ha' hb' with h | h
  · exact congrArg Prod.fst (looked_apart _ ha _ hb (List.isPrefixOf_iff_prefix.2 h))
  · exact (congrArg Prod.fst (looked_apart _ hb _ ha (List.isPrefixOf_iff_prefix.2 h))).symm

/-- What `getMimeType` finds out: one of the texts it looks for, or that there is none. -/
theorem getMimeType_looked (file : Bytes) : (∃ m, (getMimeType file, m) ∈ Spec.looked ∧ m <+: file) ∨
    ((getMimeType file = if file = [] then Mime.none else .octetStream) ∧ ∀ t m, (t, m) ∈ Spec.looked → ¬ m <+: file) := by
  have e : ∀ lit : Bytes, (lit.takeWhile (· ≠ 0)).length ≤ 7 → (startsWith (file.take 7) lit = true ↔ lit.takeWhile (· ≠ 0) <+: file) := fun lit h => startsWith_iff h
  unfold getMimeType
  simp only
  by_cases h0 : file = []
  · subst h0
    right
    refine ⟨rfl, ?_⟩
    intro t m hm hp
    have : m = [] := List.prefix_nil.1 hp
    subst this
    have ne : ∀ x ∈ Spec.looked, x.2 ≠ [] := by decide +kernel
    exact ne _ hm rfl
  · have hl : ¬ (file.take 7).length = 0 := by
      rw [List.length_take]
      have := List.length_pos_iff.2 h0
      omega
    rw [if_neg hl]
    have f1 := e (ascii "%PDF") (by decide)
    have f2 := e (ascii "%!PS") (by decide)
    have f3 := e (ascii "RaS2") (by decide)
    have f4 := e (ascii "UNIRAST") (by decide)
    have f5 := e (0x89 :: ascii "PNG") (by decide)
    have f6 := e (ascii "GIF8") (by decide)
    have f7 := e [0xFF, 0xD8, 0xFF] (by decide)
    have f8 := e [0x49, 0x49, 0x2A, 0x00] (by decide)
    have f9 := e [0x4D, 0x4D, 0x00, 0x2A] (by decide)
    split
    · rename_i h; exact .inl ⟨_, by decide, f1.1 h⟩
    split
    · rename_i h; exact .inl ⟨_, by decide, f2.1 h⟩
    split
    · rename_i h; exact .inl ⟨_, by decide, f3.1 h⟩
    split
    · rename_i h; exact .inl ⟨_, by decide, f4.1 h⟩
    split
    · rename_i h; exact .inl ⟨_, by decide, f5.1 h⟩
    split
    · rename_i h; exact .inl ⟨_, by decide, f6.1 h⟩
    split
    · rename_i h; exact .inl ⟨_, by decide, f7.1 h⟩
    split
    · rename_i h
      rcases Bool.or_eq_true_iff.1 h with h | h
      · exact .inl ⟨_, by decide, f8.1 h⟩
      · exact .inl ⟨_, by decide, f9.1 h⟩
    rename_i n1 n2 n3 n4 n5 n6 n7 n8
    right
    refine ⟨rfl, ?_⟩
    have n8a : ¬ startsWith (file.take 7) [0x49, 0x49, 0x2A, 0x00] = true := fun h => n8 (by rw [h]; rfl)
    have n8b : ¬ startsWith (file.take 7) [0x4D, 0x4D, 0x00, 0x2A] = true := fun h => n8 (by rw [h, Bool.or_true])
    intro t m hm
    simp only [Spec.looked, List.mem_cons, Prod.mk.injEq, List.not_mem_nil, or_false] at hm
    rcases hm with ⟨-, rfl⟩ | ⟨-, rfl⟩ | ⟨-, rfl⟩ | ⟨-, rfl⟩ | ⟨-, rfl⟩ | ⟨-, rfl⟩ | ⟨-, rfl⟩ | ⟨-, rfl⟩ | ⟨-, rfl⟩
    · exact fun h => n1 (f1.2 h)
    · exact fun h => n2 (f2.2 h)
    · exact fun h => n3 (f3.2 h)
    · exact fun h => n4 (f4.2 h)
    · exact fun h => n5 (f5.2 h)
    · exact fun h => n6 (f6.2 h)
    · exact fun h => n7 (f7.2 h)
    · exact fun h => n8a (f8.2 h)
    · exact fun h => n8b (f9.2 h)

theorem getMimeType_eq {file : Bytes} {t : Mime} {m : Bytes} (hm : (t, m) ∈ Spec.looked) (hp : m <+: file) : getMimeType file = t := by
  rcases getMimeType_looked file with ⟨m', h1, h2⟩ | ⟨-, h⟩
  · exact looked_unique h1 hm h2 hp
  · exact absurd hp (h t m hm)

/-- **C47.** A file that starts with the magic number of a type is recognised as of this type. -/
theorem C47_recognised {file : Bytes} {t : Mime} (h : Spec.HasMagic file t) : getMimeType file = t := by
  obtain ⟨m, hm, hp⟩ := h
  have cover : ∀ x ∈ Spec.magics, ∃ l ∈ Spec.looked, l.1 = x.1 ∧ l.2.isPrefixOf x.2 = true := by decide +kernel
  obtain ⟨l, h1, h2, h3⟩ := cover _ hm
  obtain ⟨lt, lm⟩ := l
  simp only at h2
  subst h2
  exact getMimeType_eq h1 ((List.isPrefixOf_iff_prefix.1 h3).trans hp)

/-- **C47.** For all types but TIFF: the type is given exactly when the file starts with the magic number. Missing: TIFF (`C47_tiff_false`). -/
theorem C47_exact_partial {file : Bytes} {t : Mime} (ht : t ≠ .tiff) (hn : t ≠ .none) (ho : t ≠ .octetStream) :
    getMimeType file = t ↔ Spec.HasMagic file t := by
  refine ⟨fun h => ?_, C47_recognised⟩
  rcases getMimeType_looked file with ⟨m, h1, h2⟩ | ⟨h1, -⟩
  · have same : ∀ x ∈ Spec.looked, x.1 ≠ .tiff → x ∈ Spec.magics := by decide +kernel
    rw [h] at h1
    exact ⟨m, same _ h1 ht, h2⟩
  · rw [h] at h1
    split at h1
    · exact absurd h1 hn
    · exact absurd h1 ho

/-- **C47.** The empty type is given exactly for files that are empty; octet-stream only for files without any magic number. -/
theorem C47_unknown (file : Bytes) : (getMimeType file = .none ↔ file = []) ∧ (getMimeType file = .octetStream → file ≠ [] ∧ ∀ t, ¬ Spec.HasMagic file t) := by
  have notLooked : ∀ x ∈ Spec.looked, x.1 ≠ .none ∧ x.1 ≠ .octetStream := by decide +kernel
  refine ⟨⟨fun h => ?_, fun h => by subst h; rfl⟩, fun h => ?_⟩
  · rcases getMimeType_looked file with ⟨m, h1, -⟩ | ⟨h1, -⟩
    · exact absurd h (notLooked _ h1).1
    · rw [h] at h1
      split at h1
      · assumption
      · cases h1
  · refine ⟨fun h' => (by subst h'; cases h), fun t ht => ?_⟩
    have h1 := C47_recognised ht
    rw [h] at h1
    subst h1
    obtain ⟨m, hm, -⟩ := ht
    have no : ∀ x ∈ Spec.magics, x.1 ≠ .octetStream := by decide +kernel
    exact no _ hm rfl

/-- **C47, where it fails.** A text that starts with "MM" is taken for a TIFF file: the magic number's NUL ends the string that is compared. -/
theorem C47_tiff_false : ¬ ∀ file, getMimeType file = .tiff → Spec.HasMagic file .tiff := by
  intro h
  obtain ⟨m, hm, hp⟩ := h (ascii "MMXXVI") (by decide +kernel)
  have : ∀ x ∈ Spec.magics, ¬ x.2.isPrefixOf (ascii "MMXXVI") = true := by decide +kernel
  exact this _ hm (List.isPrefixOf_iff_prefix.2 hp)

/-- a file with a magic number -/
example : Spec.HasMagic ([0x89, 80, 78, 71, 13, 10, 26, 10] ++ ascii "…") .png := ⟨[0x89, 80, 78, 71], by decide, by exact ⟨_, rfl⟩⟩

end Verif.Tools
