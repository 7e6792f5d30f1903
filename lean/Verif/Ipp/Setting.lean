import Verif.Ipp.Msg
import Verif.Ipp.Json

/-!
# Model of job settings (lib/setting.h), of `IppAttrs::get`/`getList` (lib/ippattr.h 140-184), and of saving and restoring settings
(lib/ippprintjob.cpp 317-374)
-/

namespace Verif.Ipp

/-- The template arguments with which values are read. -/
inductive Ty where
  | str | int | bool | range | res | set | coll
  deriving DecidableEq, Repr

/-- The type of the alternative that a value holds; dates are never asked for. -/
def Value.ty : Value → Option Ty
  | .str _ => some .str
  | .int _ => some .int
  | .bool _ => some .bool
  | .range _ _ => some .range
  | .res _ _ _ => some .res
  | .date _ => none
  | .set _ => some .set
  | .coll _ => some .coll

/-- `Polymorph::get<T>`, lib/polymorph.h 18-22: throws `bad_variant_access` for another alternative. -/
def getAs (t : Ty) (v : Value) : Outcome Value := if v.ty = some t then .ok v else .throws .badVariant

/-- `IppAttrs::get<T>(name, default)`, lib/ippattr.h 149-160: only `out_of_range` is caught. -/
def Attrs.get (a : Attrs) (t : Ty) (name : Bytes) (default : Value) : Outcome Value :=
  match KMap.get? a name with
  | some attr => getAs t attr.2
  | none => .ok default

/-- `IppAttr::asList`, lib/ippattr.cpp 94-104 -/
def asList : Value → List Value
  | .set l => l
  | v => [v]

/-- `get<T>` for all values of a list. -/
def getAll (t : Ty) : List Value → Outcome (List Value)
  | [] => .ok []
  | v :: r => do
    let x ← getAs t v
    let xs ← getAll t r
    return x :: xs

/-- `IppAttrs::getList<T>`, lib/ippattr.h 167-179 -/
def Attrs.getList (a : Attrs) (t : Ty) (name : Bytes) : Outcome (List Value) :=
  match KMap.get? a name with
  | some attr => getAll t (asList attr.2)
  | none => .ok []

/-- `Setting<T>`, lib/setting.h 6-129: the tag, the name, and the collection in which it lives (empty: none). -/
structure Setting where
  ty : Ty
  tag : UInt8
  name : Bytes
  subKey : Bytes := []
  deriving DecidableEq, Repr

/-- `_attrs->at(_subKey).get<IppCollection>()` if there is such an attribute, else an empty collection; lib/setting.h 53-57, 83-87 -/
def subCollection (attrs : Attrs) (subKey : Bytes) : Outcome Attrs :=
  match KMap.get? attrs subKey with
  | some (_, .coll m) => .ok m
  | some _ => .throws .badVariant
  | none => .ok []

namespace Setting

/-- `Setting::set`, lib/setting.h 49-65 -/
def set (s : Setting) (value : Value) (attrs : Attrs) : Outcome Attrs :=
  if s.subKey ≠ [] then do
    let col ← subCollection attrs s.subKey
    return KMap.assign attrs s.subKey (tBeginCollection, .coll (KMap.assign col s.name (s.tag, value)))
  else .ok (KMap.assign attrs s.name (s.tag, value))

/-- `Setting::isSet`, lib/setting.h 67-77 -/
def isSet (s : Setting) (attrs : Attrs) : Outcome Bool :=
  if s.subKey ≠ [] then
    match KMap.get? attrs s.subKey with
    | some (_, .coll m) => .ok (KMap.has m s.name)
    | some _ => .throws .badVariant
    | none => .ok false
  else .ok (KMap.has attrs s.name)

/-- `col.empty()` and what follows, lib/setting.h 89-96 -/
def putBack (attrs : Attrs) (subKey : Bytes) (col : Attrs) : Attrs :=
  if col = [] then KMap.erase attrs subKey else KMap.assign attrs subKey (tBeginCollection, .coll col)

/-- `Setting::unset`, lib/setting.h 79-102 -/
def unset (s : Setting) (attrs : Attrs) : Outcome Attrs :=
  if s.subKey ≠ [] then do
    let col ← subCollection attrs s.subKey
    return putBack attrs s.subKey (KMap.erase col s.name)
  else .ok (KMap.erase attrs s.name)

/-- `Setting::getDefault`, lib/setting.h 42-45 -/
def getDefault (s : Setting) (printerAttrs : Attrs) (fallback : Value) : Outcome Value :=
  Attrs.get printerAttrs s.ty (s.name ++ ascii "-default") fallback

/-- `_attrs->at(...).get<T>()` -/
def getAt (t : Ty) (attrs : Attrs) (name : Bytes) : Outcome Value :=
  match KMap.get? attrs name with
  | some a => getAs t a.2
  | none => .throws .outOfRange

/-- What `get` returns, given whether the setting is set; lib/setting.h 106-120 -/
def getIf (s : Setting) (printerAttrs attrs : Attrs) (fallback : Value) (isSet : Bool) : Outcome Value :=
  if isSet then
    if s.subKey ≠ [] then
      match KMap.get? attrs s.subKey with
      | some (_, .coll m) => getAt s.ty m s.name
      | some _ => .throws .badVariant
      | none => .throws .outOfRange
    else getAt s.ty attrs s.name
  else s.getDefault printerAttrs fallback

/-- `Setting::get`, lib/setting.h 104-121 -/
def get (s : Setting) (printerAttrs attrs : Attrs) (fallback : Value) : Outcome Value := do
  let b ← s.isSet attrs
  s.getIf printerAttrs attrs fallback b

/-- `Setting::isSupported`, lib/setting.h 23-26 -/
def isSupported (s : Setting) (printerAttrs : Attrs) : Bool := KMap.has printerAttrs (s.name ++ ascii "-supported")

/-- `ChoiceSetting<T>::getSupported`, lib/setting.h 144-148 -/
def choices (s : Setting) (printerAttrs : Attrs) : Outcome (List Value) :=
  Attrs.getList printerAttrs s.ty (s.name ++ ascii "-supported")

/-- `ChoiceSetting<T>::isSupportedValue`, lib/setting.h 139-142 (also that of `PreferredChoiceSetting`) -/
def choiceSupports (s : Setting) (printerAttrs : Attrs) (value : Value) : Outcome Bool := do
  let l ← s.choices printerAttrs
  return decide (value ∈ l)

/-- `PreferredChoiceSetting<T>::getPreferred`, lib/setting.h 159-168 -/
def preferred (s : Setting) (pref : Bytes) (printerAttrs : Attrs) : Outcome (List Value) :=
  Attrs.getList printerAttrs s.ty (s.name ++ ascii "-" ++ pref)

/-- The bounds of an `IppIntRange` value. -/
def bounds : Value → Int × Int
  | .range l h => (l, h)
  | _ => (0, 0)

/-- `IntegerSetting::isSupportedValue`, lib/setting.h 212-225 -/
def integerSupports (s : Setting) (printerAttrs : Attrs) (value : Int) : Outcome Bool :=
  if s.isSupported printerAttrs then do
    let r ← Attrs.get printerAttrs .range (s.name ++ ascii "-supported") (.range 0 0)
    return decide (value ≥ (bounds r).1 ∧ value ≤ (bounds r).2)
  else .ok false

/-- The loop at lib/setting.h 265-268; `i++` overflows when `high` is the largest `int`. -/
def intsBetween (low high : Int) : Outcome (List Value) :=
  if low ≤ high ∧ high = 2147483647 then .ub
  else .ok ((List.range (high - low + 1).toNat).map (fun (i : Nat) => .int (low + (i : Int))))

/-- `IntegerChoiceSetting::getSupported`, lib/setting.h 258-275 -/
def intChoices (s : Setting) (printerAttrs : Attrs) : Outcome (List Value) :=
  match KMap.get? printerAttrs (s.name ++ ascii "-supported") with
  | some (_, .range l h) => intsBetween l h
  | _ => Attrs.getList printerAttrs .int (s.name ++ ascii "-supported")

/-- `IntegerChoiceSetting::isSupportedValue`, lib/setting.h 253-256 -/
def intChoiceSupports (s : Setting) (printerAttrs : Attrs) (value : Int) : Outcome Bool := do
  let l ← s.intChoices printerAttrs
  return decide (.int value ∈ l)

end Setting

/-! The settings of a job, lib/ippprintjob.h 33-59. -/

/-- lib/ippprintjob.h 33 -/ def sSides : Setting := ⟨.str, 0x44, ascii "sides", []⟩
/-- lib/ippprintjob.h 34 -/ def sMedia : Setting := ⟨.str, 0x44, ascii "media", []⟩
/-- lib/ippprintjob.h 36 -/ def sCopies : Setting := ⟨.int, 0x21, ascii "copies", []⟩
/-- lib/ippprintjob.h 37 -/ def sMultipleDocumentHandling : Setting := ⟨.str, 0x44, ascii "multiple-document-handling", []⟩
/-- lib/ippprintjob.h 39 -/ def sPageRanges : Setting := ⟨.set, 0x33, ascii "page-ranges", []⟩
/-- lib/ippprintjob.h 41 -/ def sNumberUp : Setting := ⟨.int, 0x21, ascii "number-up", []⟩
/-- lib/ippprintjob.h 43 -/ def sColorMode : Setting := ⟨.str, 0x44, ascii "print-color-mode", []⟩
/-- lib/ippprintjob.h 44 -/ def sPrintQuality : Setting := ⟨.int, 0x23, ascii "print-quality", []⟩
/-- lib/ippprintjob.h 45 -/ def sResolution : Setting := ⟨.res, 0x32, ascii "printer-resolution", []⟩
/-- lib/ippprintjob.h 46 -/ def sScaling : Setting := ⟨.str, 0x44, ascii "print-scaling", []⟩
/-- lib/ippprintjob.h 48; in `opAttrs` -/ def sDocumentFormat : Setting := ⟨.str, 0x49, ascii "document-format", []⟩
/-- lib/ippprintjob.h 49; in `opAttrs` -/ def sCompression : Setting := ⟨.str, 0x44, ascii "compression", []⟩
/-- lib/ippprintjob.h 51 -/ def sMediaType : Setting := ⟨.str, 0x44, ascii "media-type", ascii "media-col"⟩
/-- lib/ippprintjob.h 52 -/ def sMediaSource : Setting := ⟨.str, 0x44, ascii "media-source", ascii "media-col"⟩
/-- lib/ippprintjob.h 53 -/ def sOutputBin : Setting := ⟨.str, 0x44, ascii "output-bin", []⟩
/-- lib/ippprintjob.h 54 -/ def sFinishings : Setting := ⟨.int, 0x23, ascii "finishings", []⟩
/-- lib/ippprintjob.h 56 -/ def sTopMargin : Setting := ⟨.int, 0x21, ascii "media-top-margin", ascii "media-col"⟩
/-- lib/ippprintjob.h 57 -/ def sBottomMargin : Setting := ⟨.int, 0x21, ascii "media-bottom-margin", ascii "media-col"⟩
/-- lib/ippprintjob.h 58 -/ def sLeftMargin : Setting := ⟨.int, 0x21, ascii "media-left-margin", ascii "media-col"⟩
/-- lib/ippprintjob.h 59 -/ def sRightMargin : Setting := ⟨.int, 0x21, ascii "media-right-margin", ascii "media-col"⟩

/-- The settings that live in `jobAttrs`. -/
def jobSettings : List Setting :=
  [sSides, sMedia, sCopies, sMultipleDocumentHandling, sPageRanges, sNumberUp, sColorMode, sPrintQuality, sResolution, sScaling,
   sMediaType, sMediaSource, sOutputBin, sFinishings, sTopMargin, sBottomMargin, sLeftMargin, sRightMargin]

/-- The settings that live in `opAttrs`. -/
def opSettings : List Setting := [sDocumentFormat, sCompression]

/-! ## Saving and restoring -/

/-- The files below `saved_settings`, by name; their contents as parsed JSON (that parsing inverts dumping is trusted). -/
abbrev Store := Bytes → Option Json

/-- The JSON that is saved, ippprintjob.cpp 361-369. -/
def settingsToJson (opAttrs jobAttrs : Attrs) : KMap Json :=
  let json : KMap Json := []
  let json := if opAttrs = [] then json else KMap.assign json (ascii "op-attrs") (attrsToJson opAttrs)
  if jobAttrs = [] then json else KMap.assign json (ascii "job-attrs") (attrsToJson jobAttrs)

/-- `saveSettings`, ippprintjob.cpp 354-374: the result and the new files. -/
def saveSettings (printerAttrs opAttrs jobAttrs : Attrs) (files : Store) : Outcome (Bool × Store) :=
  match KMap.get? printerAttrs (ascii "printer-uuid") with
  | some (_, .str uuid) =>
    .ok (true, fun f => if f = uuid then some (.obj (settingsToJson opAttrs jobAttrs)) else files f)
  | some _ => .throws .badVariant
  | none => .ok (false, files)

/-- `jsonObj[key].object_items()`: empty when there is no such key. -/
def itemsAt (j : Json) (key : Bytes) : Json :=
  match KMap.get? j.objectItems key with
  | some x => .obj x.objectItems
  | none => .obj []

/-- The loops with `insert_or_assign` at ippprintjob.cpp 342-349. -/
def assignAll (m : Attrs) (l : List (Bytes × Attr)) : Attrs := l.foldl (fun m e => KMap.assign m e.1 e.2) m

/-- ippprintjob.cpp 335-349, for a file that exists. -/
def restoreFrom (j : Json) (opAttrs jobAttrs : Attrs) : Outcome (Attrs × Attrs) := do
  let op ← attrsFromJson (itemsAt j (ascii "op-attrs"))
  let job ← attrsFromJson (itemsAt j (ascii "job-attrs"))
  return (assignAll opAttrs op, assignAll jobAttrs job)

/-- `restoreSettings`, ippprintjob.cpp 327-352: the new operation and job attributes. -/
def restoreSettings (printerAttrs opAttrs jobAttrs : Attrs) (files : Store) : Outcome (Attrs × Attrs) :=
  match KMap.get? printerAttrs (ascii "printer-uuid") with
  | some (_, .str uuid) =>
    match files uuid with
    | some j => restoreFrom j opAttrs jobAttrs
    | none => .ok (opAttrs, jobAttrs)
  | some _ => .throws .badVariant
  | none => .ok (opAttrs, jobAttrs)

end Verif.Ipp
