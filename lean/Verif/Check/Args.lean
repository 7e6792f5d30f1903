import Verif.Client.Model

/-!
# A check of the model against the tests of the command line in /repo (tests, not properties)

What tests/test.cpp 1212-1380 (argget, argget_subcommand) demands of the program holds of the model. The test parses several command
lines with the same objects; here each starts afresh.
-/

namespace Verif.Check

open Verif.Tools Verif.Client

/-- test.cpp 1215 -/ def boolT : Opt := boolOpt [ascii "-b", ascii "--bool"]
/-- test.cpp 1223 -/ def stringT : Opt := textOpt [ascii "-s", ascii "--string"]
/-- test.cpp 1230 -/ def intT : Opt := intOpt [ascii "-i", ascii "--integer"]
/-- test.cpp 1246 -/ def enumT : Opt := enumOpt [ascii "-e", ascii "--enum"] [ascii "apa", ascii "bpa", ascii "cpa"]

/-- What `get_args` returns, the message, the values of the options and the positional arguments. -/
def argsOf (opts : List Opt) (poss : List Pos) (args : List String) : Bool × Bytes × List (Option Val) × List Bytes :=
  let r := getArgs opts poss (args.map ascii)
  (r.success, r.errMsg, (List.range opts.length).map r.vals, r.positional)

/-- 1216-1250: the options by themselves -/
example : argsOf [boolT] [] ["-b"] = (true, [], [some .flag], []) := by decide +kernel
example : argsOf [stringT] [] ["-s", "mystring"] = (true, [], [some (.text (ascii "mystring"))], []) := by decide +kernel
example : argsOf [intT] [] ["-i", "123"] = (true, [], [some (.num 123)], []) := by decide +kernel
example : argsOf [enumT] [] ["-e", "bpa"] = (true, [], [some (.choice 1)], []) := by decide +kernel

/-- 1254-1265 -/
example : argsOf [boolT, stringT, intT, enumT] [] ["-b", "-s", "something", "-i", "456", "-e", "cpa"] =
    (true, [], [some .flag, some (.text (ascii "something")), some (.num 456), some (.choice 2)], []) := by decide +kernel

/-- a message that holds all these texts -/
def says (r : Bool × Bytes × List (Option Val) × List Bytes) (texts : List String) : Bool :=
  r.1 == false && texts.all (fun t => Text.contains r.2.1 (ascii t))

/-- 1267-1279 -/
example : says (argsOf [boolT, stringT, intT, enumT] [] ["-i", "NaN"]) ["Bad value", "-i, --integer", "NaN"] = true ∧
    says (argsOf [boolT, stringT, intT, enumT] [] ["-e", "dpa"]) ["Bad value", "-e, --enum", "dpa"] = true := by decide +kernel

/-- 1281-1286: with an error hint -/
example : says (argsOf [boolT, stringT, intT, { enumT with errorHint := ascii "Does not map to enum" }] [] ["-e", "dpa"])
    ["Does not map to enum", "dpa"] = true := by decide +kernel

/-- 1288-1291 -/
example : (argsOf [boolT, stringT, intT, enumT] [] ["-i", "666", "-n", "777"]).1 = false := by decide +kernel

/-- 1293-1297 -/
def argsT : List Pos := [⟨ascii "arg1", false⟩, ⟨ascii "arg2", true⟩]

/-- 1301-1315 -/
example : argsOf [boolT, stringT, intT] argsT ["-b", "-s", "something_else", "-i", "789", "posarg1", "posarg2"] =
    (true, [], [some .flag, some (.text (ascii "something_else")), some (.num 789)], [ascii "posarg1", ascii "posarg2"]) := by decide +kernel

/-- 1317-1323 -/
example : argsOf [boolT, stringT, intT] argsT ["-b", "-s", "something_else", "-i", "789", "posarg1"] =
      (true, [], [some .flag, some (.text (ascii "something_else")), some (.num 789)], [ascii "posarg1"]) ∧
    says (argsOf [boolT, stringT, intT] argsT ["-b", "-s", "something_else", "-i", "789"]) ["Missing positional argument", "arg1"] = true := by
  decide +kernel

/-- 1325-1332: a malformed switch -/
example : says (argsOf [boolT, stringT, intT] argsT ["-bool", "posarg1", "posarg2"]) ["Unknown argument", "-bool"] = true := by decide +kernel

/-- argget_subcommand, 1346-1379: the sub-command, what is returned, the values -/
def subArgsOf (args : List String) : Option (Bytes × Bool × Option Val × List Bytes) :=
  match getSubArgs [(ascii "boolify", [boolT], []), (ascii "stringify", [stringT], []), (ascii "posify", [], [⟨ascii "arg1", false⟩])]
      (args.map ascii) with
  | .inr (sub, r) => some (sub, r.success, r.vals 0, r.positional)
  | .inl _ => none

example : subArgsOf ["boolify", "-b"] = some (ascii "boolify", true, some .flag, []) := by decide +kernel
example : subArgsOf ["stringify", "--string", "mystring"] = some (ascii "stringify", true, some (.text (ascii "mystring")), []) := by decide +kernel
example : subArgsOf ["posify", "myposarg"] = some (ascii "posify", true, none, [ascii "myposarg"]) := by decide +kernel
example : subArgsOf ["stringify", "-b"] = some (ascii "stringify", false, none, []) := by decide +kernel

end Verif.Check
