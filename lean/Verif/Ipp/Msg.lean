import Verif.Ipp.Value
import Verif.Raster.Header

/-!
# Model of IPP message encoding and decoding (lib/ippmsg.cpp)

The printout of unsupported attributes (ippmsg.cpp 32-38) and of uncaught tags (437) is in Warns.lean. Not modelled: the depth of the C++ stack.
-/

set_option linter.unusedVariables false

namespace Verif.Ipp

open Raster (i32ToNat natToI32)

/-! Tags, lib/ippattr.h 21-49 -/

/-- lib/ippattr.h 23 -/ abbrev tOpAttrs : UInt8 := 0x01
/-- lib/ippattr.h 24 -/ abbrev tJobAttrs : UInt8 := 0x02
/-- lib/ippattr.h 25 -/ abbrev tEndAttrs : UInt8 := 0x03
/-- lib/ippattr.h 26 -/ abbrev tPrinterAttrs : UInt8 := 0x04
/-- lib/ippattr.h 27 -/ abbrev tUnsupportedAttrs : UInt8 := 0x05
/-- lib/ippattr.h 29 -/ abbrev tInteger : UInt8 := 0x21
/-- lib/ippattr.h 30 -/ abbrev tBoolean : UInt8 := 0x22
/-- lib/ippattr.h 31 -/ abbrev tEnum : UInt8 := 0x23
/-- lib/ippattr.h 33 -/ abbrev tDateTime : UInt8 := 0x31
/-- lib/ippattr.h 34 -/ abbrev tResolution : UInt8 := 0x32
/-- lib/ippattr.h 35 -/ abbrev tIntegerRange : UInt8 := 0x33
/-- lib/ippattr.h 36 -/ abbrev tBeginCollection : UInt8 := 0x34
/-- lib/ippattr.h 39 -/ abbrev tEndCollection : UInt8 := 0x37
/-- lib/ippattr.h 48 -/ abbrev tMemberName : UInt8 := 0x4A

/-- The branches of the `switch(tag)` statements in `decodeValue` (ippmsg.cpp 135-206) and `encodeValue` (368-439). -/
inductive Kind where
  /-- group delimiters; 0x05 is in the `default` branch of `encodeValue`, which throws the same exception type -/
  | delimiter
  | int | bool | date | res | range | coll | str
  /-- any other tag: a string for `decodeValue` (line 202), an exception for `encodeValue` (436-438) -/
  | other
  deriving DecidableEq, Repr

/-- Which branch a tag takes. -/
def kind (tag : UInt8) : Kind :=
  if 1 ≤ tag ∧ tag ≤ 5 then .delimiter
  else if tag = 0x21 ∨ tag = 0x23 then .int
  else if tag = 0x22 then .bool
  else if tag = 0x31 then .date
  else if tag = 0x32 then .res
  else if tag = 0x33 then .range
  else if tag = 0x34 then .coll
  else if tag ∈ [0x30, 0x35, 0x36, 0x41, 0x42, 0x44, 0x45, 0x46, 0x47, 0x48, 0x49] then .str
  else .other

/-! ## Encoding -/

/-- `encodeValue`, ippmsg.cpp 366-440, for everything but collections (lines 408-418). -/
def encodeScalar (tag : UInt8) (v : Value) : Outcome Bytes :=
  match kind tag with
  | .delimiter => .throws .logicError
  | .int => match v with
    | .int i => .ok (be16 4 ++ be32 (i32ToNat i))
    | _ => .throws .badVariant
  | .bool => match v with
    | .bool b => .ok (be16 1 ++ be8 (if b then 1 else 0))
    | _ => .throws .badVariant
  | .date => match v with
    | .date d => .ok (be16 11 ++ be16 d.year.toNat ++ [d.month, d.day, d.hour, d.minutes, d.seconds, d.deciSeconds,
        d.plusMinus, d.utcHOffset, d.utcMOffset])
    | _ => .throws .badVariant
  | .res => match v with
    | .res x y u => .ok (be16 9 ++ be32 x.toNat ++ be32 y.toNat ++ [u])
    | _ => .throws .badVariant
  | .range => match v with
    | .range l h => .ok (be16 8 ++ be32 (i32ToNat l) ++ be32 (i32ToNat h))
    | _ => .throws .badVariant
  | .coll => .throws .badVariant
  | .str => match v with
    | .str s => .ok (be16 s.length ++ s)
    | _ => .throws .badVariant
  | .other => .throws .logicError

mutual
/-- The value part of `encodeAttribute`, ippmsg.cpp 350-363 (`top = true`), and `encodeValue`, 366-440 (`top = false`, where a
`OneSetOf` is just a wrong variant). -/
def encodeVal (top : Bool) (tag : UInt8) : Value → Outcome Bytes
  | .set l => if top then encodeSet tag l else encodeScalar tag (.set l)
  | .coll m =>
    if kind tag = .coll then do
      let b ← encodeMembers m
      return be16 0 ++ b ++ ([tEndCollection] ++ be16 0 ++ be16 0)
    else encodeScalar tag (.coll m)
  | .str s => encodeScalar tag (.str s)
  | .int i => encodeScalar tag (.int i)
  | .bool b => encodeScalar tag (.bool b)
  | .range l h => encodeScalar tag (.range l h)
  | .res x y u => encodeScalar tag (.res x y u)
  | .date d => encodeScalar tag (.date d)

/-- ippmsg.cpp 352-358; `takeFront` of an empty list throws (lib/list.h 15-18). -/
def encodeSet (tag : UInt8) : List Value → Outcome Bytes
  | [] => .throws .logicError
  | v :: r => do
    let a ← encodeVal false tag v
    let b ← encodeRest tag r
    return a ++ b

/-- The loop at ippmsg.cpp 354-358. -/
def encodeRest (tag : UInt8) : List Value → Outcome Bytes
  | [] => .ok []
  | v :: r => do
    let a ← encodeVal false tag v
    let b ← encodeRest tag r
    return [tag] ++ be16 0 ++ a ++ b

/-- The loop at ippmsg.cpp 412-415, with `encodeAttribute` for a member (342-348). -/
def encodeMembers : List (Bytes × (UInt8 × Value)) → Outcome Bytes
  | [] => .ok []
  | (name, (tag, v)) :: r => do
    let a ← encodeVal true tag v
    let b ← encodeMembers r
    return [tMemberName] ++ be16 0 ++ be16 name.length ++ name ++ [tag] ++ be16 0 ++ a ++ b
end

/-- `encodeAttribute`, ippmsg.cpp 339-364, for an attribute that is not a member of a collection. -/
def encodeAttribute (name : Bytes) (attr : Attr) : Outcome Bytes := do
  let a ← encodeVal true attr.1 attr.2
  return [attr.1] ++ be16 name.length ++ name ++ a

/-- `encodeAttributes`, ippmsg.cpp 331-337. -/
def encodeAttributes : Attrs → Outcome Bytes
  | [] => .ok []
  | (name, attr) :: r => do
    let a ← encodeAttribute name attr
    let b ← encodeAttributes r
    return a ++ b

/-- `IppMsg`, lib/ippmsg.h 71-78. -/
structure Msg where
  majVsn : UInt8 := 1
  minVsn : UInt8 := 1
  opOrStatus : UInt16 := 0
  opAttrs : Attrs := []
  jobAttrs : List Attrs := []
  printerAttrs : Attrs := []
  deriving DecidableEq, Repr

/-- ippmsg.cpp 76-80 -/
def initialAttrs : List Bytes :=
  [ascii "attributes-charset", ascii "attributes-natural-language", ascii "printer-uri", ascii "job-id",
   ascii "requesting-user-name"]

/-- The loop at ippmsg.cpp 81-89: what was written, and what is left of the attributes. -/
def encodeInitial : List Bytes → Attrs → Outcome (Bytes × Attrs)
  | [], attrs => .ok ([], attrs)
  | key :: r, attrs =>
    match attrs.get? key with
    | some val => do
      let a ← encodeAttribute key val
      let (b, rest) ← encodeInitial r (attrs.erase key)
      return (a ++ b, rest)
    | none => encodeInitial r attrs

/-- The loop at ippmsg.cpp 91-98. -/
def encodeJobs : List Attrs → Outcome Bytes
  | [] => .ok []
  | attrs :: r =>
    if attrs = [] then encodeJobs r
    else do
      let a ← encodeAttributes attrs
      let b ← encodeJobs r
      return [tJobAttrs] ++ a ++ b

/-- ippmsg.cpp 99-103 -/
def encodePrinter (attrs : Attrs) : Outcome Bytes :=
  if attrs = [] then .ok []
  else do
    let a ← encodeAttributes attrs
    return [tPrinterAttrs] ++ a

/-- `IppMsg::encode`, ippmsg.cpp 64-106, with the value of the static `_reqId` before the call. -/
def encodeMsg (reqId : Nat) (m : Msg) : Outcome Bytes := do
  let (initial, rest) ← encodeInitial initialAttrs m.opAttrs
  let op ← encodeAttributes rest
  let jobs ← encodeJobs m.jobAttrs
  let printer ← encodePrinter m.printerAttrs
  return [m.majVsn, m.minVsn] ++ be16 m.opOrStatus.toNat ++ be32 reqId ++ [tOpAttrs] ++ initial ++ op ++ jobs ++ printer ++
    [tEndAttrs]

/-- The static `_reqId` after a call to `encode` (line 69: post-increment of a `uint32_t`, before anything can throw). -/
def nextReqId (reqId : Nat) : Nat := (reqId + 1) % 4294967296

/-- `baseOpAttrs`, ippmsg.cpp 119-131; `name` is the user's name or "anonymous". -/
def baseOpAttrs (url name : Bytes) : Attrs :=
  [(ascii "attributes-charset", (0x47, .str (ascii "utf-8"))),
   (ascii "attributes-natural-language", (0x48, .str (ascii "en-us"))),
   (ascii "printer-uri", (0x45, .str url)),
   (ascii "requesting-user-name", (0x42, .str name))]

/-! ## Decoding -/

/-- `data >> (uint16_t)n`: throws when the data does not match. -/
def expect16 (n : Nat) (data : Bytes) : Outcome Bytes := do
  let (x, r) ← rd16 data
  if x = n then return r else .throws .badMatch

/-- Reading a signed 32-bit integer. -/
def rdInt (data : Bytes) : Outcome (Int × Bytes) := do
  let (x, r) ← rd32 data
  return (natToI32 x, r)

/-- Reading the members of an `IppDateTime`, ippmsg.cpp 167-169. -/
def rdDate (data : Bytes) : Outcome (DateTime × Bytes) := do
  let (y, r) ← rd16 data
  let (mo, r) ← rd8 r
  let (d, r) ← rd8 r
  let (h, r) ← rd8 r
  let (mi, r) ← rd8 r
  let (s, r) ← rd8 r
  let (ds, r) ← rd8 r
  let (pm, r) ← rd8 r
  let (uh, r) ← rd8 r
  let (um, r) ← rd8 r
  return (⟨.ofNat y, .ofNat mo, .ofNat d, .ofNat h, .ofNat mi, .ofNat s, .ofNat ds, .ofNat pm, .ofNat uh, .ofNat um⟩, r)

/-- `decodeValue`, ippmsg.cpp 133-207. `data >>= (uint16_t)0` accepts an empty value for all kinds. -/
def decodeValue (tag : UInt8) (data : Bytes) : Outcome (Value × Bytes) :=
  match kind tag with
  | .delimiter => .throws .logicError
  | .int => match matchBytes (be16 0) data with
    | some r => .ok (.int 0, r)
    | none => do
      let r ← expect16 4 data
      let (i, r) ← rdInt r
      return (.int i, r)
  | .bool => match matchBytes (be16 0) data with
    | some r => .ok (.bool false, r)
    | none => do
      let r ← expect16 1 data
      let (b, r) ← rd8 r
      return (.bool (b != 0), r)
  | .date => match matchBytes (be16 0) data with
    | some r => .ok (.date {}, r)
    | none => do
      let r ← expect16 11 data
      let (d, r) ← rdDate r
      return (.date d, r)
  | .res => match matchBytes (be16 0) data with
    | some r => .ok (.res 0 0 0, r)
    | none => do
      let r ← expect16 9 data
      let (x, r) ← rd32 r
      let (y, r) ← rd32 r
      let (u, r) ← rd8 r
      return (.res (.ofNat x) (.ofNat y) (.ofNat u), r)
  | .range => match matchBytes (be16 0) data with
    | some r => .ok (.range 0 0, r)
    | none => do
      let r ← expect16 8 data
      let (l, r) ← rdInt r
      let (h, r) ← rdInt r
      return (.range l h, r)
  | .coll | .str | .other => do
    let (n, r) ← rd16 data
    let (s, r) ← rdBytes n r
    return (.str s, r)

/-! Reading consumes data: needed for the recursion over the data below. -/

theorem rd8_length {s : Bytes} {x : Nat} {r : Bytes} (h : rd8 s = .ok (x, r)) : r.length < s.length := by
  unfold rd8 at h; split at h
  · cases h; simp
  · cases h

theorem rd16_length {s : Bytes} {x : Nat} {r : Bytes} (h : rd16 s = .ok (x, r)) : r.length < s.length := by
  unfold rd16 at h; split at h
  · cases h; simp; omega
  · cases h

theorem rd32_length {s : Bytes} {x : Nat} {r : Bytes} (h : rd32 s = .ok (x, r)) : r.length < s.length := by
  unfold rd32 at h; split at h
  · cases h; simp; omega
  · cases h

theorem rdInt_length {s : Bytes} {x : Int} {r : Bytes} (h : rdInt s = .ok (x, r)) : r.length < s.length := by
  obtain ⟨⟨y, r'⟩, h1, h2⟩ := Outcome.bind_eq_ok.mp h
  cases h2; exact rd32_length h1

theorem expect16_length {n : Nat} {s r : Bytes} (h : expect16 n s = .ok r) : r.length < s.length := by
  obtain ⟨⟨y, r'⟩, h1, h2⟩ := Outcome.bind_eq_ok.mp h
  simp only at h2
  split at h2
  · cases h2; exact rd16_length h1
  · cases h2

theorem rdBytes_length {n : Nat} {s x r : Bytes} (h : rdBytes n s = .ok (x, r)) : r.length ≤ s.length := by
  obtain ⟨rfl, _⟩ := rdBytes_ok h; simp

theorem matchBytes_length {x s r : Bytes} (h : matchBytes x s = some r) : r.length ≤ s.length := by
  rw [matchBytes_some h]; simp

theorem rdDate_length {s : Bytes} {d : DateTime} {r : Bytes} (h : rdDate s = .ok (d, r)) : r.length < s.length := by
  unfold rdDate at h
  obtain ⟨⟨_, r1⟩, h1, h⟩ := Outcome.bind_eq_ok.mp h
  obtain ⟨⟨_, r2⟩, h2, h⟩ := Outcome.bind_eq_ok.mp h
  obtain ⟨⟨_, r3⟩, h3, h⟩ := Outcome.bind_eq_ok.mp h
  obtain ⟨⟨_, r4⟩, h4, h⟩ := Outcome.bind_eq_ok.mp h
  obtain ⟨⟨_, r5⟩, h5, h⟩ := Outcome.bind_eq_ok.mp h
  obtain ⟨⟨_, r6⟩, h6, h⟩ := Outcome.bind_eq_ok.mp h
  obtain ⟨⟨_, r7⟩, h7, h⟩ := Outcome.bind_eq_ok.mp h
  obtain ⟨⟨_, r8⟩, h8, h⟩ := Outcome.bind_eq_ok.mp h
  obtain ⟨⟨_, r9⟩, h9, h⟩ := Outcome.bind_eq_ok.mp h
  obtain ⟨⟨_, r10⟩, h10, h⟩ := Outcome.bind_eq_ok.mp h
  cases h
  have := rd16_length h1; have := rd8_length h2; have := rd8_length h3; have := rd8_length h4; have := rd8_length h5
  have := rd8_length h6; have := rd8_length h7; have := rd8_length h8; have := rd8_length h9; have := rd8_length h10
  simp only at *
  omega

theorem decodeValue_length {tag : UInt8} {s : Bytes} {v : Value} {r : Bytes} (h : decodeValue tag s = .ok (v, r)) :
    r.length ≤ s.length := by
  unfold decodeValue at h
  split at h
  · cases h
  · split at h
    · rename_i hm; cases h; exact matchBytes_length hm
    · obtain ⟨r1, h1, h⟩ := Outcome.bind_eq_ok.mp h
      obtain ⟨⟨_, r2⟩, h2, h⟩ := Outcome.bind_eq_ok.mp h
      cases h; have := expect16_length h1; have := rdInt_length h2; omega
  · split at h
    · rename_i hm; cases h; exact matchBytes_length hm
    · obtain ⟨r1, h1, h⟩ := Outcome.bind_eq_ok.mp h
      obtain ⟨⟨_, r2⟩, h2, h⟩ := Outcome.bind_eq_ok.mp h
      cases h; have := expect16_length h1; have := rd8_length h2; omega
  · split at h
    · rename_i hm; cases h; exact matchBytes_length hm
    · obtain ⟨r1, h1, h⟩ := Outcome.bind_eq_ok.mp h
      obtain ⟨⟨_, r2⟩, h2, h⟩ := Outcome.bind_eq_ok.mp h
      cases h; have := expect16_length h1; have := rdDate_length h2; omega
  · split at h
    · rename_i hm; cases h; exact matchBytes_length hm
    · obtain ⟨r1, h1, h⟩ := Outcome.bind_eq_ok.mp h
      obtain ⟨⟨_, r2⟩, h2, h⟩ := Outcome.bind_eq_ok.mp h
      obtain ⟨⟨_, r3⟩, h3, h⟩ := Outcome.bind_eq_ok.mp h
      obtain ⟨⟨_, r4⟩, h4, h⟩ := Outcome.bind_eq_ok.mp h
      cases h; have := expect16_length h1; have := rd32_length h2; have := rd32_length h3; have := rd8_length h4
      simp only at *; omega
  · split at h
    · rename_i hm; cases h; exact matchBytes_length hm
    · obtain ⟨r1, h1, h⟩ := Outcome.bind_eq_ok.mp h
      obtain ⟨⟨_, r2⟩, h2, h⟩ := Outcome.bind_eq_ok.mp h
      obtain ⟨⟨_, r3⟩, h3, h⟩ := Outcome.bind_eq_ok.mp h
      cases h; have := expect16_length h1; have := rdInt_length h2; have := rdInt_length h3
      simp only at *; omega
  all_goals
    obtain ⟨⟨_, r1⟩, h1, h⟩ := Outcome.bind_eq_ok.mp h
    obtain ⟨⟨_, r2⟩, h2, h⟩ := Outcome.bind_eq_ok.mp h
    cases h; have := rd16_length h1; have := rdBytes_length h2
    simp only at *; omega

/-- `getUnnamedAttributes`, ippmsg.cpp 209-227. -/
def getUnnamed (data : Bytes) : Outcome (List Attr × Bytes) :=
  match data with
  | [] => .ok ([], [])
  | tag :: r =>
    match hm : matchBytes (be16 0) r with
    | none => .ok ([], tag :: r)
    | some r1 =>
      match hd : decodeValue tag r1 with
      | .ok (v, r2) =>
        match getUnnamed r2 with
        | .ok (attrs, r3) => .ok ((tag, v) :: attrs, r3)
        | .throws e => .throws e
        | .ub => .ub
        | .hang => .hang
      | .throws e => .throws e
      | .ub => .ub
      | .hang => .hang
  termination_by data.length
  decreasing_by
    have := decodeValue_length hd
    have := matchBytes_length hm
    simp only [List.length_cons]; omega

/-- The loop at ippmsg.cpp 248-251: the values with the given tag at the front; `none` when the list runs out, since then
`attrs.front()` is called on an empty list. -/
def takeSame (tag : UInt8) : List Attr → Option (List Value × List Attr)
  | [] => none
  | (t, v) :: r => if t = tag then (takeSame tag r).map (fun p => (v :: p.1, p.2)) else some ([], (t, v) :: r)

theorem takeSame_length {tag : UInt8} {l : List Attr} {vs : List Value} {r : List Attr}
    (h : takeSame tag l = some (vs, r)) : r.length ≤ l.length := by
  induction l generalizing vs with
  | nil => cases h
  | cons e l ih =>
    obtain ⟨t, v⟩ := e
    rw [takeSame] at h
    split at h
    · cases hl : takeSame tag l with
      | none => rw [hl] at h; cases h
      | some p =>
        obtain ⟨p1, p2⟩ := p
        rw [hl] at h
        simp only [Option.map_some, Option.some.injEq, Prod.mk.injEq] at h
        obtain ⟨_, rfl⟩ := h
        have := ih hl
        simp; omega
    · cases h; exact Nat.le_refl _

/-- ippmsg.cpp 289-296 -/
def finishCollection : List Value → Value
  | [v] => v
  | l => .set l

/-- A member's value, ippmsg.cpp 253-262. -/
def memberValue (v : Value) (restOfSet : List Value) : Value :=
  if restOfSet = [] then v else .set (v :: restOfSet)

/-- `collectAttributes`, ippmsg.cpp 229-297: the result and what is left of `attrs`. The comparison of lengths is only there to
make the recursion well-founded; `collect_length` shows that it always holds. -/
def collect (attrs : List Attr) (resArr : List Value) (resVal : Attrs) : Outcome (Value × List Attr) :=
  match attrs with
  | [] => .ok (finishCollection resArr, [])
  | (tag, v) :: rest =>
    if tag = tMemberName then
      match v with
      | .str key =>
        match rest with
        | [] => .throws .logicError
        | (t2, v2) :: rest2 =>
          if t2 = tBeginCollection then
            match collect rest2 [] [] with
            | .ok (cv, rest3) =>
              if h : rest3.length ≤ rest2.length then
                collect rest3 resArr (resVal.insertNew key (tBeginCollection, cv))
              else .hang
            | .throws e => .throws e
            | .ub => .ub
            | .hang => .hang
          else
            match ht : takeSame t2 rest2 with
            | none => .ub
            | some (vs, rest3) => collect rest3 resArr (resVal.insertNew key (t2, memberValue v2 vs))
      | _ => .throws .badVariant
    else if tag = tEndCollection then
      match rest with
      | [] => .ok (finishCollection (resArr ++ [.coll resVal]), [])
      | (t2, v2) :: rest2 =>
        if t2 = tBeginCollection then collect rest2 (resArr ++ [.coll resVal]) []
        else .ok (finishCollection (resArr ++ [.coll resVal]), (t2, v2) :: rest2)
    else .throws .logicError
  termination_by attrs.length
  decreasing_by
    all_goals simp only [List.length_cons]
    all_goals first
      | omega
      | (have := takeSame_length ht; omega)

/-- The value of an attribute with more than one value, ippmsg.cpp 314-327. -/
def withUnnamed (v : Value) (unnamed : List Attr) : Value :=
  if unnamed = [] then v else .set (v :: unnamed.map (fun a => a.2))

/-- ippmsg.cpp 309-312: the value and the unnamed values that are left. -/
def collectIf (tag : UInt8) (v : Value) (unnamed : List Attr) : Outcome (Value × List Attr) :=
  if tag = tBeginCollection then collect unnamed [] [] else .ok (v, unnamed)

/-- `consumeAttributes`, ippmsg.cpp 299-329: name, attribute, and the rest of the data. -/
def consumeAttribute (data : Bytes) : Outcome (Bytes × Attr × Bytes) := do
  let (tag, r) ← rd8 data
  let (n, r) ← rd16 r
  let (name, r) ← rdBytes n r
  let (v, r) ← decodeValue (UInt8.ofNat tag) r
  let (unnamed, r) ← getUnnamed r
  let (v, unnamed) ← collectIf (UInt8.ofNat tag) v unnamed
  return (name, (UInt8.ofNat tag, withUnnamed v unnamed), r)

theorem getUnnamed_length (data : Bytes) {l : List Attr} {r : Bytes} (h : getUnnamed data = .ok (l, r)) :
    r.length ≤ data.length := by
  fun_induction getUnnamed data generalizing l r with
  | case1 => cases h; simp
  | case2 => cases h; simp
  | case3 tag rest r1 hm v r2 hd attrs r3 hg ih =>
    cases h
    have := ih hg
    have := decodeValue_length hd
    have := matchBytes_length hm
    simp only [List.length_cons]; omega
  | case4 => cases h
  | case5 => cases h
  | case6 => cases h
  | case7 => cases h
  | case8 => cases h
  | case9 => cases h

theorem consumeAttribute_length {data name : Bytes} {a : Attr} {r : Bytes} (h : consumeAttribute data = .ok (name, a, r)) :
    r.length < data.length := by
  unfold consumeAttribute at h
  obtain ⟨⟨_, r1⟩, h1, h⟩ := Outcome.bind_eq_ok.mp h
  obtain ⟨⟨_, r2⟩, h2, h⟩ := Outcome.bind_eq_ok.mp h
  obtain ⟨⟨_, r3⟩, h3, h⟩ := Outcome.bind_eq_ok.mp h
  obtain ⟨⟨_, r4⟩, h4, h⟩ := Outcome.bind_eq_ok.mp h
  obtain ⟨⟨_, r5⟩, h5, h⟩ := Outcome.bind_eq_ok.mp h
  obtain ⟨⟨_, r6⟩, h6, h⟩ := Outcome.bind_eq_ok.mp h
  cases h
  have := rd8_length h1; have := rd16_length h2; have := rdBytes_length h3
  have := decodeValue_length h4; have := getUnnamed_length _ h5
  simp only at *; omega

/-- Storing a finished group, ippmsg.cpp 20-38. -/
def storeGroup (m : Msg) (tag : UInt8) (attrs : Attrs) : Msg :=
  if tag = tOpAttrs then { m with opAttrs := attrs }
  else if tag = tJobAttrs then { m with jobAttrs := m.jobAttrs ++ [attrs] }
  else if tag = tPrinterAttrs then { m with printerAttrs := attrs }
  else m

/-- The loop at ippmsg.cpp 16-52. -/
def decodeLoop (m : Msg) (cur : UInt8) (attrs : Attrs) (data : Bytes) : Outcome (Msg × Bytes) :=
  match data with
  | [] => .ok (m, [])
  | t :: r =>
    if t ≤ tUnsupportedAttrs then
      if t = tEndAttrs then .ok (storeGroup m cur attrs, r)
      else decodeLoop (storeGroup m cur attrs) t [] r
    else
      match hc : consumeAttribute (t :: r) with
      | .ok (name, attr, r') => decodeLoop m cur (attrs.insertNew name attr) r'
      | .throws e => .throws e
      | .ub => .ub
      | .hang => .hang
  termination_by data.length
  decreasing_by
    · simp
    · have := consumeAttribute_length hc; omega

/-- `IppMsg::IppMsg(Bytestream&)`, ippmsg.cpp 7-53: the message and what is left of the data. -/
def decodeMsg (data : Bytes) : Outcome (Msg × Bytes) := do
  let (maj, r) ← rd8 data
  let (min, r) ← rd8 r
  let (op, r) ← rd16 r
  let (_, r) ← rd32 r
  decodeLoop { majVsn := .ofNat maj, minVsn := .ofNat min, opOrStatus := .ofNat op } tEndAttrs [] r

end Verif.Ipp
