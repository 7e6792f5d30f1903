import Verif.Printer.Manage

/-!
# Model of what `ippclient info` shows (utils/ippclient.cpp 22-80, 117-124, 295-315)

The text is that on standard output; when an attribute has a type that is not expected, the program ends with an exception (what it has
shown until then is not modelled).
-/

namespace Verif.Client

open Ipp Job Printer

/-- `std::ostream << int` -/
def showInt (i : Int) : Bytes := if i < 0 then 45 :: dec i.natAbs else dec i.natAbs

/-- `[0-9a-fA-F]`: its value -/
def hexDigit (b : UInt8) : Option Nat :=
  if 48 ≤ b ∧ b ≤ 57 then some (b.toNat - 48)
  else if 97 ≤ b ∧ b ≤ 102 then some (b.toNat - 87)
  else if 65 ≤ b ∧ b ≤ 70 then some (b.toNat - 55)
  else none

/-- `[0-9a-fA-F]{2}` and `std::stoul` with base 16, ippclient.cpp 26-33 -/
def hexByte (a b : UInt8) : Option Nat := do
  let h ← hexDigit a
  let l ← hexDigit b
  return h * 16 + l

/-- `std::regex_match` with `^#([0-9a-fA-F]{2})([0-9a-fA-F]{2})([0-9a-fA-F]{2})$`, ippclient.cpp 26-33 -/
def rgbOf : Bytes → Option (Nat × Nat × Nat)
  | [35, a, b, c, d, e, f] => do
    let r ← hexByte a b
    let g ← hexByte c d
    let b ← hexByte e f
    return (r, g, b)
  | _ => none

/-- The loop of `print_colors`, ippclient.cpp 27-36 -/
def printColors : List Bytes → Bytes
  | [] => []
  | color :: rest =>
    (match rgbOf color with
      | some (r, g, b) =>
        [27] ++ ascii "[48;2;" ++ dec r ++ ascii ";" ++ dec g ++ ascii ";" ++ dec b ++ ascii "m" ++ ascii " " ++ [27] ++ ascii "[0m"
      | none => []) ++ printColors rest

/-- One supply, ippclient.cpp 50-54 -/
def showSupply (s : Supply) : Outcome Bytes := do
  let color := printColors s.colors
  let percent ← getPercent s
  return ascii "* " ++ s.name ++ ascii "\n" ++ ascii "  " ++ (if color ≠ [] then color ++ ascii " " else []) ++ showInt percent ++ ascii "%" ++
    (if isLow s then ascii "(low)" else []) ++ ascii " " ++ s.type

/-- `operator<<(std::ostream&, List<IppPrinter::Supply>)`, ippclient.cpp 46-61 -/
def showSupplies : List Supply → Outcome Bytes
  | [] => .ok []
  | s :: r => do
    let t ← showSupply s
    let u ← showSupplies r
    return t ++ (if r = [] then [] else ascii "\n") ++ u

/-- `operator<<(std::ostream&, List<IppPrinter::Firmware>)`, ippclient.cpp 63-74 -/
def showFirmware : List (Bytes × Bytes) → Bytes
  | [] => []
  | (name, version) :: r => name ++ ascii ": " ++ version ++ (if r = [] then [] else ascii "\n") ++ showFirmware r

/-- `print_if_set`, ippclient.cpp 117-124; none: the value is the default one. -/
def printIfSet (title : Bytes) : Option Bytes → Bytes
  | some text => title ++ ascii "\n" ++ text ++ ascii "\n\n"
  | none => []

/-- A text, unless it is empty. -/
def ifText (s : Bytes) : Option Bytes := if s ≠ [] then some s else none

/-- A number, unless it is 0. -/
def ifNumber (i : Int) : Option Bytes := if i ≠ 0 then some (showInt i) else none

/-- `printer.….get<std::string>(name)`, ippprinter.cpp 212-240, 332-335 -/
def textSection (p : Printer) (name : Bytes) : Outcome (Option Bytes) := do
  let s ← getString p.attrs name []
  return ifText s

/-- `printer.….get<int>(name)`, ippprinter.cpp 257-265 -/
def numberSection (p : Printer) (name : Bytes) : Outcome (Option Bytes) := do
  let i ← getInteger p.attrs name
  return ifNumber i

/-- `join_string(printer.….getList<std::string>(name), sep)`, ippprinter.cpp 242-255, 322-340 -/
def listSection (p : Printer) (name sep : Bytes) : Outcome (Option Bytes) := do
  let l ← strList p.attrs name
  return ifText (Text.joinString sep l)

/-- ippclient.cpp 307 -/
def suppliesSection (p : Printer) : Outcome (Option Bytes) := do
  let l ← supplies p
  if l ≠ [] then do
    let t ← showSupplies l
    return some t
  else return none

/-- ippclient.cpp 308 -/
def firmwareSection (p : Printer) : Outcome (Option Bytes) := do
  let l ← firmware p
  return if l ≠ [] then some (showFirmware l) else none

/-- ippclient.cpp 313 -/
def guessedSection (p : Printer) : Outcome (Option Bytes) := do
  let l ← additionalDocumentFormats p
  return ifText (Text.joinString (ascii "\n") l)

/-- ippclient.cpp 314 -/
def inputSection (pl : Pipelines) (p : Printer) : Outcome (Option Bytes) := do
  let l ← inputFormats pl p
  return ifText (Text.joinString (ascii "\n") l)

/-- The titles and values at ippclient.cpp 297-314. -/
def sections (pl : Pipelines) (p : Printer) : List (Bytes × Outcome (Option Bytes)) :=
  [(ascii "Name:", textSection p (ascii "printer-name")),
   (ascii "Make and model:", textSection p (ascii "printer-make-and-model")),
   (ascii "Location:", textSection p (ascii "printer-location")),
   (ascii "UUID:", textSection p (ascii "printer-uuid")),
   (ascii "Printer state message:", textSection p (ascii "printer-state-message")),
   (ascii "Printer state reasons:", listSection p (ascii "printer-state-reasons") (ascii "\n")),
   (ascii "IPP versions:", listSection p (ascii "ipp-versions-supported") (ascii ", ")),
   (ascii "IPP features:", listSection p (ascii "ipp-features-supported") (ascii "\n")),
   (ascii "Pages per minute:", numberSection p (ascii "pages-per-minute")),
   (ascii "Pages per minute (color):", numberSection p (ascii "pages-per-minute-color")),
   (ascii "Supplies:", suppliesSection p),
   (ascii "Firmware:", firmwareSection p),
   (ascii "Settable attributes:", listSection p (ascii "printer-settable-attributes-supported") (ascii "\n")),
   (ascii "Icons:", listSection p (ascii "printer-icons") (ascii "\n")),
   (ascii "Strings:", textSection p (ascii "printer-strings-uri")),
   (ascii "Document formats (native):", listSection p (ascii "document-format-supported") (ascii "\n")),
   (ascii "Document formats (guessed):", guessedSection p),
   (ascii "Document formats (with conversion):", inputSection pl p)]

/-- The statements one after the other. -/
def printSections : List (Bytes × Outcome (Option Bytes)) → Outcome Bytes
  | [] => .ok []
  | (title, value) :: r => do
    let v ← value
    let t ← printSections r
    return printIfSet title v ++ t

/-- `info`, ippclient.cpp 295-315 -/
def info (pl : Pipelines) (p : Printer) : Outcome Bytes := printSections (sections pl p)

end Verif.Client
