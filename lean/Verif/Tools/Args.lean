import Verif.Core.Text

/-!
# The command line: lib/argget.h

An option is known by its names, whether it takes a value and how the value is read. Each option has a variable of its own (the
variables are references in the code, and no two options of a tool share one). What the help text says is in HelpProps.lean.
-/

namespace Verif.Tools

/-- What an option's variable can be set to. -/
inductive Val where
  /-- `SwitchArg<bool>` -/
  | flag
  /-- `SwitchArg<std::string>` -/
  | text (s : Bytes)
  /-- `SwitchArg` of a type of numbers -/
  | num (i : Int)
  /-- `EnumSwitchArg` -/
  | choice (k : Nat)
  deriving DecidableEq, Repr

/-- `SwitchArgBase`, lines 28-101 -/
structure Opt where
  /-- `_names`; at least one (lines 35-38) -/
  names : List Bytes
  /-- `get_value`: none for `SwitchArg<bool>` (lines 118-122), otherwise `convert` (lines 123-128, 148-155) or the mappings
  (lines 195-204); none of a text that can not be converted -/
  takes : Option (Bytes → Option Val)
  /-- `typeHint` -/
  typeHint : Bytes
  /-- `_errorHint` -/
  errorHint : Bytes

/-- `PosArg`, lines 213-245 -/
structure Pos where
  name : Bytes
  optional : Bool
  deriving DecidableEq, Repr

/-- `SwitchArgBase::docName`, lines 70-83 -/
def Opt.docName (o : Opt) : Bytes :=
  match o.names with
  | [] => o.typeHint
  | n :: ns => n ++ (ns.map (ascii ", " ++ ·)).flatten ++ o.typeHint

/-- `PosArg::docName`, lines 236-239 -/
def Pos.docName (p : Pos) : Bytes := if p.optional then ascii "[" ++ p.name ++ ascii "]" else ascii "<" ++ p.name ++ ascii ">"

/-- The values of the options (none: `isSet()` is false), by their place in `_argDefs`. -/
abbrev Vals := Nat → Option Val

/-- `_value = …; _set = true` -/
def Vals.set (v : Vals) (i : Nat) (x : Val) : Vals := fun j => if j = i then some x else v j

/-- Lines 279-288 with `match` (lines 55-66): the first option that has this name. -/
def first : List Opt → Nat → Bytes → Option (Nat × Opt)
  | [], _, _ => none
  | o :: os, i, name => if name ∈ o.names then some (i, o) else first os (i + 1) name

/-- How `get_args` ends: what it returns, the message, the options' values and those of the positional arguments. -/
structure Result where
  success : Bool
  errMsg : Bytes
  vals : Vals
  positional : List Bytes

/-- What the loop in lines 275-308 comes to: an error, or the arguments that are left. -/
inductive Loop where
  | failed (errMsg : Bytes) (vals : Vals)
  | done (rest : List Bytes) (vals : Vals)

/-- Lines 289-306: the option's name has been taken off the list. -/
def badValue (o : Opt) : List Bytes → Bytes
  | [] => ascii "Missing value for " ++ o.docName
  | v :: _ => if o.errorHint ≠ [] then o.errorHint ++ ascii " (" ++ v ++ ascii ")" else ascii "Bad value for " ++ o.docName ++ ascii " (" ++ v ++ ascii ")"

/-- Lines 275-308 -/
def options (opts : List Opt) : List Bytes → Vals → Loop
  | [], vals => .done [] vals
  | name :: rest, vals =>
    match first opts 0 name with
    | none => .done (name :: rest) vals
    | some (i, o) =>
      match o.takes with
      | none => options opts rest (vals.set i .flag)
      | some conv =>
        match rest with
        | [] => .failed (badValue o []) vals
        | v :: rest' =>
          match conv v with
          | some x => options opts rest' (vals.set i x)
          | none => .failed (badValue o (v :: rest')) vals

/-- Lines 316-323: the values, the arguments that are left, and the first positional argument that is missing. -/
def positionals : List Pos → List Bytes → List Bytes → List Bytes × List Bytes × Option Pos
  | [], args, got => (got, args, none)
  | _ :: ps, a :: args, got => positionals ps args (got ++ [a])
  | p :: ps, [], got => if p.optional then positionals ps [] got else (got, [], some p)

/-- `ArgGet::get_args`, lines 260-334, on the arguments behind the program's name. -/
def getArgs (opts : List Opt) (poss : List Pos) (args : List Bytes) : Result :=
  match options opts args (fun _ => none) with
  | .failed e vals => { success := false, errMsg := e, vals := vals, positional := [] }
  | .done rest vals =>
    if rest.length > poss.length then
      { success := false, errMsg := ascii "Unknown argument: " ++ rest.headD [], vals := vals, positional := [] }
    else
      match positionals poss rest [] with
      | (got, _, some p) => { success := false, errMsg := ascii "Missing positional argument " ++ p.docName, vals := vals, positional := got }
      | (got, [], none) => { success := true, errMsg := [], vals := vals, positional := got }
      | (got, a :: _, none) => { success := false, errMsg := ascii "Unknown argument: " ++ a, vals := vals, positional := got }

/-- `SubArgGet::get_args`, lines 400-435, on the arguments behind the program's name: the sub-command and its result, or the message. The last of several
sub-commands of the same name counts (line 396). -/
def getSubArgs (subs : List (Bytes × List Opt × List Pos)) : List Bytes → Bytes ⊕ (Bytes × Result)
  | [] => .inl (ascii "No sub-command given")
  | sub :: args =>
    match subs.reverse.find? (fun s => s.1 == sub) with
    | none => .inl (ascii "Invalid sub-command")
    | some s => .inr (sub, getArgs s.2.1 s.2.2 args)

/-! ## Reading numbers -/

/-- `std::stoi` (32-bit `int`): skips white space, takes an optional sign and the digits, ignores what follows. -/
def stoi (s : Bytes) : Option Int :=
  let t := s.dropWhile isSpace
  let u := if t.head? = some 45 ∨ t.head? = some 43 then t.drop 1 else t
  let ds := u.takeWhile isDigit
  let n : Int := if t.head? = some 45 then - (digitsVal ds : Int) else digitsVal ds
  if ds = [] then none else if n < -2147483648 ∨ 2147483647 < n then none else some n

/-- `SwitchArg<bool>` -/
def boolOpt (names : List Bytes) : Opt := { names, takes := none, typeHint := [], errorHint := [] }

/-- `SwitchArg<int>` -/
def intOpt (names : List Bytes) : Opt := { names, takes := some (fun s => (stoi s).map .num), typeHint := ascii " <int>", errorHint := [] }

/-- `SwitchArg<std::string>` -/
def textOpt (names : List Bytes) : Opt := { names, takes := some (fun s => some (.text s)), typeHint := ascii " <string>", errorHint := [] }

end Verif.Tools
