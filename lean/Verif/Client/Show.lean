import Verif.Client.Model

/-!
# Model of the texts with which ippclient tells what a printer supports (utils/ippclient.cpp 22-154, lib/ippattr.cpp 15-42, 270-314,
lib/setting.h 28-40, 170-197)
-/

namespace Verif.Client

open Verif.Ipp Verif.Text

/-- `IppIntRange::toStr`, ippattr.cpp 15-20 -/
def showRange (low high : Int) : Bytes := showInt low ++ ascii "-" ++ showInt high

/-- `IppResolution::toStr`, ippattr.cpp 37-42 -/
def showRes (x y : UInt32) (units : UInt8) : Bytes :=
  dec x.toNat ++ ascii "x" ++ dec y.toNat ++ (if units = 3 then ascii "dpi" else if units = 4 then ascii "dots/cm" else ascii "unknown")

mutual
/-- `operator<<(std::ostream&, const IppValue&)`, ippattr.cpp 270-314 -/
def showValue : Value → Bytes
  | .str s => s
  | .int i => showInt i
  | .bool b => if b then ascii "true" else ascii "false"
  | .range l h => showRange l h
  | .res x y u => showRes x y u
  | .date d => d.toStr
  | .set l => showValues l
  | .coll _ => ascii "<collection>"
/-- The loop at ippattr.cpp 299-306. -/
def showValues : List Value → Bytes
  | [] => []
  | v :: r => showValue v ++ (if r = [] then [] else ascii ", ") ++ showValues r
end

/-- `Setting::supportedStr`, setting.h 28-40 -/
def supportedStr (s : Setting) (printerAttrs : Attrs) : Bytes :=
  match KMap.get? printerAttrs (s.name ++ ascii "-supported") with
  | some attr => showValue attr.2
  | none => ascii "unsupported"

/-- The loop at setting.h 181-191. -/
def showMarked (pref : Bytes) (preferred : List Value) : List Value → Bytes
  | [] => []
  | v :: r =>
    showValue v ++ (if v ∈ preferred then ascii "(" ++ pref ++ ascii ")" else []) ++ (if r = [] then [] else ascii ", ") ++
      showMarked pref preferred r

/-- setting.h 176-180 -/
def preferredOf (s : Setting) (pref : Bytes) (printerAttrs : Attrs) : List Value :=
  match KMap.get? printerAttrs (s.name ++ ascii "-" ++ pref) with
  | some p => asList p.2
  | none => []

/-- `PreferredChoiceSetting::supportedStr`, setting.h 170-197 -/
def preferredStr (s : Setting) (pref : Bytes) (printerAttrs : Attrs) : Bytes :=
  match KMap.get? printerAttrs (s.name ++ ascii "-supported") with
  | some attr => showMarked pref (preferredOf s pref printerAttrs) (asList attr.2)
  | none => ascii "unsupported"

/-- The loop of `resolution_list`, ippclient.cpp 86-93; `first` stays true. -/
def showResolutions (first : Bool) : List Value → Bytes
  | [] => []
  | .res x y u :: r =>
    if u ≠ 3 then showResolutions first r else (if first then [] else ascii ",") ++ showRes x y u ++ showResolutions first r
  | _ :: r => showResolutions first r

/-- `resolution_list`, ippclient.cpp 82-100 -/
def resolutionList (l : List Value) : Bytes := if showResolutions true l = [] then ascii "empty" else showResolutions true l

/-- `getAlias` of the option for the quality, argget.h 187-190, with the names of ippclient.cpp 217-219 -/
def qualityAlias : Value → Outcome Bytes
  | .int 3 => .ok (ascii "draft")
  | .int 4 => .ok (ascii "normal")
  | .int 5 => .ok (ascii "high")
  | _ => .throws .outOfRange

/-- `getAlias` for each of the values, ippclient.cpp 447-451 -/
def qualityNames : List Value → Outcome (List Bytes)
  | [] => .ok []
  | v :: r => do
    let n ← qualityAlias v
    let ns ← qualityNames r
    return n :: ns

/-- The hint for the quality, ippclient.cpp 447-452, without `Valid values are: ` -/
def qualityHint (printerAttrs : Attrs) : Outcome Bytes := do
  let l ← sPrintQuality.choices printerAttrs
  let ns ← qualityNames l
  return joinString (ascii ", ") ns

/-- What `set_or_fail` writes before it exits, ippclient.cpp 141-151 -/
def complaint (s : Setting) (docName hint : Bytes) (printerAttrs : Attrs) : Bytes :=
  ascii "Argument " ++ docName ++ ascii " " ++
    if s.isSupported printerAttrs = false then ascii "is not supported by this printer.\n"
    else ascii "has an invalid value. \n" ++ hint ++ ascii "\n"

/-- `set_or_fail`, ippclient.cpp 133-156: the message with which it exits, if it does. -/
def failure (s : Setting) (supports : Attrs → Value → Outcome Bool) (docName hint : Bytes) (given : Option Value) (force : Bool)
    (printerAttrs : Attrs) : Outcome (Option Bytes) :=
  match given with
  | none => .ok none
  | some v => do
    let b ← supports printerAttrs v
    return if b || force then none else some (complaint s docName hint printerAttrs)

/-- The other `set_or_fail`, ippclient.cpp 126-131: the names and the hint. `docName` is how the option is shown. -/
def failureOf (s : Setting) (supports : Attrs → Value → Outcome Bool) (supported docName : Bytes) (given : Option Value) (force : Bool)
    (printerAttrs : Attrs) : Outcome (Option Bytes) :=
  failure s supports (docName ++ ascii " (ipp: " ++ s.name ++ ascii ")") (ascii "Valid values are: " ++ supported) given force printerAttrs

end Verif.Client
