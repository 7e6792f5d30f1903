import Verif.Core.Bytes

/-!
# Model of lib/baselinify.cpp

libjpeg is a parameter: how it reads is a tree of what it asks its source manager for, depending on the bytes it got; what it writes is a list of
bytes. Its contract for source and destination managers is that of libjpeg.txt ("I/O suspension", "Compressed data handling"): it takes a byte after it
has called `fill_input_buffer` if there was none left, and calls `empty_output_buffer` as soon as there is no room left.
-/

namespace Verif.Jpeg

/-- 2^64, for the wrap-around of `size_t` -/
def sizeMod : Nat := 18446744073709551616

/-- `bts_source_mgr`, baselinify.cpp 9-44: the input, the place of the next byte and the number of those that are left. -/
structure Source where
  data : Bytes
  next : Nat
  left : Nat
  deriving DecidableEq, Repr

/-- The constructor, baselinify.cpp 11-25 -/
def Source.make (data : Bytes) : Source := { data, next := 0, left := data.length }

/-- `fill_input_buffer`, baselinify.cpp 29-32: true, and nothing else. -/
def Source.fill (s : Source) : Source × Bool := (s, true)

/-- `skip_input_data`, baselinify.cpp 34-39, for a positive number (libjpeg asks for no others). -/
def Source.skip (s : Source) (n : Nat) : Source :=
  { s with next := s.next + n, left := (s.left + (sizeMod - n % sizeMod)) % sizeMod }

/-- How libjpeg takes a byte (macro INPUT_BYTE): none when the source manager says that there is nothing now. Reading outside of the input is undefined. -/
def Source.take (s : Source) : Outcome (Option (UInt8 × Source)) :=
  let (s, more) := if s.left = 0 then s.fill else (s, true)
  if more then
    match s.data[s.next]? with
    | some b => .ok (some (b, { s with next := s.next + 1, left := (s.left + (sizeMod - 1)) % sizeMod }))
    | none => .ub
  else .ok none

/-- How libjpeg reads: it takes bytes, skips some, and comes to a result or an error. -/
inductive Reader (α : Type) where
  | done (a : α)
  | error
  | take (k : UInt8 → Reader α)
  | skip (n : Nat) (k : Reader α)

/-- A reader with this source manager. None: an error, or nothing now (which `jpeg_read_header` and `jpeg_read_coefficients` of baselinify.cpp 104-106 do not
expect). -/
def Reader.run {α : Type} : Reader α → Source → Outcome (Option α)
  | .done a, _ => .ok (some a)
  | .error, _ => .ok none
  | .take k, s =>
    match s.take with
    | .ok (some (b, s')) => (k b).run s'
    | .ok none => .ok none
    | .throws e => .throws e
    | .ub => .ub
    | .hang => .hang
  | .skip n k, s => k.run (s.skip n)

/-- `bts_destination_mgr`, baselinify.cpp 46-78: the buffer, the room that is left in it and the output so far. -/
structure Dest where
  buffer : Bytes
  free : Nat
  out : Bytes
  deriving DecidableEq, Repr

/-- The constructor, baselinify.cpp 48-55. The contents of the buffer are not known. -/
def Dest.make (buffer out : Bytes) : Dest := { buffer, free := buffer.length, out }

/-- `empty_output_buffer`, baselinify.cpp 59-67 -/
def Dest.empty (d : Dest) : Dest := { d with out := d.out ++ d.buffer, free := d.buffer.length }

/-- How libjpeg puts a byte (emit_byte). -/
def Dest.put (d : Dest) (b : UInt8) : Dest :=
  let d := { d with buffer := d.buffer.set (d.buffer.length - d.free) b, free := d.free - 1 }
  if d.free = 0 then d.empty else d

/-- `term_destination`, baselinify.cpp 69-74 -/
def Dest.term (d : Dest) : Bytes := d.out ++ d.buffer.take (d.buffer.length - d.free)

/-- The bytes go through the destination manager. -/
def Dest.write (d : Dest) (bytes : Bytes) : Bytes := (bytes.foldl Dest.put d).term

/-- A marker: its code and its contents. -/
structure Marker where
  code : Nat
  data : Bytes
  deriving DecidableEq, Repr

/-- A picture in a JPEG file: what `jpeg_copy_critical_parameters` copies (sizes, samplings, tables; the identifiers of the components), the coefficients,
and the markers in their order. -/
structure Picture where
  critical : Bytes
  ids : List Nat
  coefs : Bytes
  markers : List Marker
  deriving DecidableEq, Repr

/-- libjpeg: how it reads a picture, and what it writes in baseline form for a picture, with or without markers of its own. -/
structure Library where
  reader : Reader Picture
  bytes : (writeJfif writeAdobe : Bool) → Picture → Bytes

/-- How `baselinify` ends: with an output, or with the end of the program (the error handler of `jpeg_std_error` calls `exit`). -/
inductive Ended where
  | written (out : Bytes)
  | exited
  deriving DecidableEq, Repr

/-- `baselinify`, baselinify.cpp 80-128. Markers are saved only for the codes asked for (100-102). -/
def baselinify (lib : Library) (buffer inBts outBts : Bytes) : Outcome Ended :=
  match lib.reader.run (Source.make inBts) with
  | .ok (some pic) =>
    let saved := pic.markers.filter (fun m => m.code = 0xE0 ∨ m.code = 0xE1)
    let bytes := lib.bytes false false { pic with markers := saved }
    .ok (.written ((Dest.make buffer outBts).write bytes))
  | .ok none => .ok .exited
  | .throws e => .throws e
  | .ub => .ub
  | .hang => .hang

end Verif.Jpeg
