import Verif.Text.Lemmas

/-!
# Splitting, joining and line ends: C19, C20
-/

namespace Verif.Text

/-! ## C20 -/

/-- C20: joining the pieces gives the string back. -/
theorem C20_join_split (c : UInt8) (s : Bytes) : joinString [c] (splitString [c] s) = s := joinString_split c s

/-- C20: no piece contains the separator, and there is always one piece more than there are separators. -/
theorem C20_split_pieces (c : UInt8) (s : Bytes) :
    (∀ p ∈ splitString [c] s, c ∉ p) ∧ (splitString [c] s).length = s.count c + 1 := splitString_pieces c s

/-- C20: splitting a joined list of separator-free pieces gives that list. -/
theorem C20_split_join (c : UInt8) (l : List Bytes) (hne : l ≠ []) (h : ∀ p ∈ l, c ∉ p) :
    splitString [c] (joinString [c] l) = l := splitString_join c l hne h

example : (∀ p ∈ [ascii "a", [], ascii "bc"], (44 : UInt8) ∉ p) ∧
    joinString [44] [ascii "a", [], ascii "bc"] = ascii "a,,bc" := by decide +kernel

/-! ## C19

A text is seen as a first line and then, for each line end, the kind of the line end and the next line. -/

/-- The two ways to end a line. -/
inductive LineEnd where
  | lf | crlf

/-- The bytes of a line end. -/
def LineEnd.bytes : LineEnd → Bytes
  | .lf => [10]
  | .crlf => [13, 10]

/-- The text made of a first line and the lines that follow, each with the line end before it. -/
def textOf (first : Bytes) (rest : List (LineEnd × Bytes)) : Bytes :=
  first ++ rest.flatMap (fun l => l.1.bytes ++ l.2)

/-- What is wanted: the same lines, each line end a CR LF. -/
def wantedText (first : Bytes) (rest : List (LineEnd × Bytes)) : Bytes :=
  first ++ rest.flatMap (fun l => [13, 10] ++ l.2)

/-- The lines are lines: no LF in them, and none that is followed by LF ends in CR. -/
def Lines : Bytes → List (LineEnd × Bytes) → Prop
  | first, [] => 10 ∉ first
  | first, (.crlf, l) :: rest => 10 ∉ first ∧ Lines l rest
  | first, (.lf, l) :: rest => 10 ∉ first ∧ first.getLast? ≠ some 13 ∧ Lines l rest

/-- The full C19. -/
def C19_full : Prop :=
  ∀ (first : Bytes) (rest : List (LineEnd × Bytes)), Lines first rest →
    fixupText (textOf first rest) = wantedText first rest

/-- C19 is false of the code: "a" CR LF "b" becomes "a" CR LF CR LF "b". -/
theorem C19_line_ends_false : ¬ C19_full := by
  intro h
  have := h (ascii "a") [(.crlf, ascii "b")] ⟨by decide +kernel, by show (10 : UInt8) ∉ ascii "b"; decide +kernel⟩
  revert this
  decide +kernel

/-- What the code makes of a line end. -/
def LineEnd.produced : LineEnd → Bytes
  | .lf => [13, 10]
  | .crlf => [13, 10, 13, 10]

/-- What the code makes of a text: LF becomes CR LF, CR LF becomes CR LF CR LF. -/
def producedText (first : Bytes) (rest : List (LineEnd × Bytes)) : Bytes :=
  first ++ rest.flatMap (fun l => l.1.produced ++ l.2)

/-- C19, exact description of what is produced; missing to the full C19: CR LF must give one CR LF, but gives two. -/
theorem C19_line_ends_exact_partial (first : Bytes) (rest : List (LineEnd × Bytes)) (h : Lines first rest) :
    fixupText (textOf first rest) = producedText first rest := by
  induction rest generalizing first with
  | nil =>
    simp only [textOf, producedText, List.flatMap_nil, List.append_nil]
    have : first = first ++ [] := by simp
    rw [this, fixup_plain first [] h (by simp), fixup_nil]
  | cons l rest ih =>
    obtain ⟨e, l⟩ := l
    cases e with
    | lf =>
      obtain ⟨h1, h2, h3⟩ := h
      have e1 : textOf first ((.lf, l) :: rest) = first ++ 10 :: textOf l rest := by
        simp [textOf, LineEnd.bytes]
      rw [e1, fixup_plain first _ h1 (fun _ => h2), fixup_lf, ih l h3]
      simp [producedText, LineEnd.produced]
    | crlf =>
      obtain ⟨h1, h3⟩ := h
      have e1 : textOf first ((.crlf, l) :: rest) = first ++ 13 :: 10 :: textOf l rest := by
        simp [textOf, LineEnd.bytes]
      rw [e1, fixup_plain first _ h1 (by simp), fixup_crlf, fixup_lf, ih l h3]
      simp [producedText, LineEnd.produced]

/-- C19 for texts whose line ends are all LF; missing to the full C19: CR LF line ends. -/
theorem C19_line_ends_partial (first : Bytes) (rest : List (LineEnd × Bytes)) (h : Lines first rest)
    (hlf : ∀ l ∈ rest, l.1 = .lf) : fixupText (textOf first rest) = wantedText first rest := by
  rw [C19_line_ends_exact_partial first rest h]
  unfold producedText wantedText
  congr 1
  induction rest generalizing first with
  | nil => rfl
  | cons l rest ih =>
    obtain ⟨e, l⟩ := l
    have he : e = .lf := hlf (e, l) (by simp)
    subst he
    simp only [List.flatMap_cons]
    rw [ih l h.2.2 (fun x hx => hlf x (by simp [hx]))]
    rfl

example : Lines (ascii "a") [(.lf, ascii "b"), (.lf, [])] ∧
    fixupText (ascii "a\nb\n") = ascii "a\r\nb\r\n" := by
  refine ⟨⟨?_, ?_, ?_, ?_, (List.not_mem_nil : (10 : UInt8) ∉ [])⟩, ?_⟩ <;> decide +kernel

end Verif.Text
