import Verif.Convert.Says
import Verif.Convert.Files
import Verif.Discovery.Tool
import Verif.Ipp.Tool
import Verif.Raster.AnyDoc

/-!
# What the small tools say: utils/bsplit.cpp, baselinify_main.cpp, ippdecode.cpp, minimime_main.cpp, pwg2ppm_main.cpp (C115)

The texts for the same runs as `bsplit`, `baselinifyRun`, `ippdecode` and `pwgRun` (`minimime` has its own). Not modelled: what libjpeg prints when it gives up, and what the run-time system says
about an exception that nobody catches.
-/

set_option linter.unusedVariables false

namespace Verif.Convert

open Tools Tools.Spec Client Client.Spec

/-! ## Model -/

/-- bsplit.cpp 23-25, in the order of 30 -/
def bsplitTold : List (Opt × Bytes) :=
  [told helpOpt (ascii "Print this help text"), told (intOpt [ascii "--head"]) (ascii "Get head number of bytes from the beginning"),
   told (intOpt [ascii "--tail"]) (ascii "Get tail number of bytes from the end")]

/-- `HELPTEXT`, bsplit.cpp 8 -/
def bsplitNote : Bytes := ascii "Negative numbers means \"all but\" number of bytes from the beginning/end."

/-- `main`, bsplit.cpp 15-89: what it says, where `bsplit` has what it does (`print_error`, 10-13, is as in ppm2pwg) -/
def bsplitSays (files : Bytes → Option Bytes) (name : Bytes) (args : List Bytes) : Said :=
  let r := getArgs (bsplitTold.map (·.1)) bsplitPos args
  let help := helpFor name bsplitTold bsplitPos bsplitNote
  if (r.vals 0).isSome then { stdout := help }
  else if r.success = false then printError r.errMsg help
  else
    match files (r.positional.headD []) with
    | none => { stderr := ascii "Failed to open input" ++ [10] }
    | some _ => if (r.vals 1).isSome = (r.vals 2).isSome then { stderr := ascii "Please give --head *or* --tail." ++ [10] } else {}

/-- `main`, baselinify_main.cpp 7-31: what it says, where `baselinifyRun` has what it does -/
def baselinifySays (fs : Files) (args : List Bytes) : Said :=
  match args with
  | [inFile, _] =>
    match fs.input inFile with
    | none => { stderr := ascii "Failed to open input" ++ [10] }
    | some _ => {}
  | _ => { stderr := ascii "Usage: baselinify <infile> <outfile> (\"-\" for stdin/stdout)" ++ [10] }

/-- `main`, ippdecode.cpp 7-38: what goes to the standard error, where `Ipp.ippdecode` has the rest -/
def ippdecodeSays (read : Bytes → Option Bytes) (args : List Bytes) : Bytes :=
  match args with
  | [name] =>
    match read name with
    | none => ascii "Failed to open input" ++ [10]
    | some data =>
      match Ipp.decodeMsg data with
      | .throws _ => ascii "Exception caught." ++ [10]
      | _ => []
  | _ => ascii "Usage: ippdecode [file]" ++ [10]

/-- `main`, pwg2ppm_main.cpp 8-21, where `pwgRun` has what it does, and `Raster.pwg2ppmSays` what it says about a file -/
def pwgSays (describePwg : Raster.PwgHdr → Bytes) (describeUrf : Raster.UrfHdr → Bytes) (fs : Files) (args : List Bytes) : Bytes :=
  match args with
  | [inFile, _] => Raster.pwg2ppmSays describePwg describeUrf ((fs.read inFile).getD [])
  | _ => ascii "Usage: pwg2ppm <infile> <outfile prefix>" ++ [10]

/-! ## Specification -/

namespace Spec

/-- White space as `isspace` has it in the C locale -/
def Blank (b : UInt8) : Prop := b ∈ ascii " \t\n\r" ++ [11, 12]

/-- The number that a word begins with: white space, a sign, digits, and something else. It has to be an `int`. -/
def IntWord (w : Bytes) (n : Int) : Prop :=
  ∃ blank sign digits rest : Bytes, w = blank ++ (sign ++ (digits ++ rest)) ∧ (∀ b ∈ blank, Blank b) ∧ (sign = [] ∨ sign = ascii "+" ∨ sign = ascii "-") ∧
    digits ≠ [] ∧ (∀ d ∈ digits, 48 ≤ d.toNat ∧ d.toNat ≤ 57) ∧ (∀ d, rest.head? = some d → ¬ (48 ≤ d.toNat ∧ d.toNat ≤ 57)) ∧
    n = (if sign = ascii "-" then -1 else 1) * (digits.foldl (fun (m : Nat) d => 10 * m + (d.toNat - 48)) 0 : Nat) ∧ -2147483648 ≤ n ∧ n ≤ 2147483647

/-- The first `n` bytes, or all but the last `-n` -/
def HeadPart (n : Int) (data p : Bytes) : Prop := ∃ q, data = p ++ q ∧ if 0 ≤ n then (p.length : Int) = n else (q.length : Int) = -n

/-- The last `n` bytes, or all but the first `-n` -/
def TailPart (n : Int) (data p : Bytes) : Prop := ∃ q, data = q ++ p ∧ if 0 ≤ n then (p.length : Int) = n else (q.length : Int) = -n

/-- The help of bsplit, behind the program's name -/
def bsplitHelp : Bytes := lines
  [" [options] <input file> <output file>",
   "  -h, --help      Print this help text",
   "  --head <int>    Get head number of bytes from the beginning",
   "  --tail <int>    Get tail number of bytes from the end",
   "",
   "Negative numbers means \"all but\" number of bytes from the beginning/end."]

/-- What bsplit does and says -/
inductive BsplitRun (files : Bytes → Option Bytes) (name : Bytes) (args : List Bytes) : Outcome Tools.Done → Said → Prop
  | help : AsksHelp bsplitOpts args → BsplitRun files name args (.ok (.said 0)) { stdout := ascii "Usage: " ++ name ++ bsplitHelp }
  | usage {uses : List Use} {rest : List Bytes} {m : Bytes} : ¬ AsksHelp bsplitOpts args → args = (uses.map (·.words)).flatten ++ rest → (∀ u ∈ uses, IsUse bsplitOpts u) →
      Fault bsplitOpts bsplitPos rest m → BsplitRun files name args (.ok (.said 1)) { stderr := m ++ ascii "\n\nUsage: " ++ name ++ bsplitHelp }
  | input {uses : List Use} {inFile outFile : Bytes} : ¬ AsksHelp bsplitOpts args → Accounts bsplitOpts bsplitPos args uses [inFile, outFile] → files inFile = none →
      BsplitRun files name args (.ok (.said 1)) { stderr := ascii "Failed to open input\n" }
  | choice {uses : List Use} {inFile outFile data : Bytes} : ¬ AsksHelp bsplitOpts args → Accounts bsplitOpts bsplitPos args uses [inFile, outFile] → files inFile = some data →
      (word uses [ascii "--head"] = none ↔ word uses [ascii "--tail"] = none) →
      BsplitRun files name args (.ok (.said 1)) { stderr := ascii "Please give --head *or* --tail.\n" }
  | head {uses : List Use} {inFile outFile data w p : Bytes} {n : Int} : ¬ AsksHelp bsplitOpts args → Accounts bsplitOpts bsplitPos args uses [inFile, outFile] →
      files inFile = some data → word uses [ascii "--head"] = some w → word uses [ascii "--tail"] = none → IntWord w n → HeadPart n data p →
      BsplitRun files name args (.ok (.wrote outFile p)) {}
  | tail {uses : List Use} {inFile outFile data w p : Bytes} {n : Int} : ¬ AsksHelp bsplitOpts args → Accounts bsplitOpts bsplitPos args uses [inFile, outFile] →
      files inFile = some data → word uses [ascii "--tail"] = some w → word uses [ascii "--head"] = none → IntWord w n → TailPart n data p →
      BsplitRun files name args (.ok (.wrote outFile p)) {}
  | short {uses : List Use} {inFile outFile data w : Bytes} {n : Int} {e : Exn} : ¬ AsksHelp bsplitOpts args → Accounts bsplitOpts bsplitPos args uses [inFile, outFile] →
      files inFile = some data → (word uses [ascii "--head"] = some w ∧ word uses [ascii "--tail"] = none ∨ word uses [ascii "--tail"] = some w ∧ word uses [ascii "--head"] = none) →
      IntWord w n → data.length < n.natAbs → BsplitRun files name args (.throws e) {}

/-- The complaint of a tool that takes so many words, the first of which names its input: the usage for another number of words, then an input that can not be opened. -/
inductive Complains (usage : Bytes) (count : Nat) (opened : Bytes → Option Bytes) (args : List Bytes) : Bytes → Prop
  | usage : args.length ≠ count → Complains usage count opened args (ascii "Usage: " ++ usage ++ ascii "\n")
  | input {inFile : Bytes} {more : List Bytes} : args.length = count → args = inFile :: more → opened inFile = none →
      Complains usage count opened args (ascii "Failed to open input\n")

/-- Nothing to complain about: this many words, the first of which is a file with this content. -/
def Opens (count : Nat) (opened : Bytes → Option Bytes) (args : List Bytes) (data : Bytes) : Prop :=
  args.length = count ∧ ∃ inFile more, args = inFile :: more ∧ opened inFile = some data

/-- The claim that all tools tell of a file that is not there, and end with 1. -/
def C115_missing : Prop := ∀ (read : Bytes → Option Bytes) (name : Bytes), read name = none →
  (Discovery.minimime read [name]).out = .ok 1 ∧ (Discovery.minimime read [name]).stderr = ascii "Failed to open input\n"

/-- The claim that a message on the standard error means a code that is not 0. -/
def C115_code : Prop := ∀ (dump : Ipp.Json → Bytes) (read : Bytes → Option Bytes) (args : List Bytes),
  ippdecodeSays read args ≠ [] → (Ipp.ippdecode dump read args).1 ≠ .ok 0

end Spec

open Verif.Convert.Spec

/-! ## Proofs: numbers -/

theorem blank_iff (b : UInt8) : Blank b ↔ isSpace b = true := by
  have key : ∀ n : Fin 256, (UInt8.ofNat n.val ∈ ascii " \t\n\r" ++ [11, 12]) ↔ isSpace (UInt8.ofNat n.val) = true := by decide +kernel
  have := key ⟨b.toNat, b.toNat_lt⟩
  rwa [UInt8.ofNat_toNat] at this

theorem digit_iff (b : UInt8) : isDigit b = true ↔ 48 ≤ b.toNat ∧ b.toNat ≤ 57 := by
  simp only [isDigit, decide_eq_true_eq, UInt8.le_iff_toNat_le]
  rfl

theorem takeWhile_split {p : UInt8 → Bool} {a r : Bytes} (h1 : ∀ b ∈ a, p b = true) (h2 : ∀ b, r.head? = some b → p b = false) :
    (a ++ r).takeWhile p = a ∧ (a ++ r).dropWhile p = r := by
  induction a with
  | nil =>
    cases r with
    | nil => exact ⟨rfl, rfl⟩
    | cons b r =>
      have := h2 b rfl
      exact ⟨by simp [this], by simp [this]⟩
  | cons b a ih =>
    have hb := h1 b List.mem_cons_self
    obtain ⟨i1, i2⟩ := ih (fun c hc => h1 c (List.mem_cons_of_mem _ hc))
    exact ⟨by simp [hb, i1], by simp [hb, i2]⟩

theorem dropWhile_head {p : UInt8 → Bool} {l : Bytes} {b : UInt8} (h : (l.dropWhile p).head? = some b) : p b = false := by
  induction l with
  | nil => cases h
  | cons a l ih =>
    rw [List.dropWhile_cons] at h
    split at h
    · exact ih h
    · rename_i hp
      cases h; simpa using hp

theorem mem_takeWhile_true {p : UInt8 → Bool} {l : Bytes} {b : UInt8} (h : b ∈ l.takeWhile p) : p b = true := by
  induction l with
  | nil => cases h
  | cons a l ih =>
    rw [List.takeWhile_cons] at h
    split at h
    · rcases List.mem_cons.mp h with rfl | h
      · assumption
      · exact ih h
    · cases h

theorem foldl_digits (ds : Bytes) (m : Nat) : ds.foldl (fun (m : Nat) d => 10 * m + (d.toNat - 48)) m = ds.foldl (fun acc b => acc * 10 + (b.toNat - 48)) m := by
  induction ds generalizing m with
  | nil => rfl
  | cons d ds ih => simp only [List.foldl_cons]; rw [ih, Nat.mul_comm]

theorem intWord_iff (w : Bytes) (n : Int) : IntWord w n ↔ Tools.stoi w = some n := by
  have em : ascii "-" = [45] := rfl
  have ep : ascii "+" = [43] := rfl
  constructor
  · rintro ⟨blank, sign, digits, rest, rfl, h1, h2, h3, h4, h5, h6, h7, h8⟩
    rw [foldl_digits] at h6
    have hd : ∀ d ∈ digits, isDigit d = true := fun d hm => (digit_iff d).mpr (h4 d hm)
    obtain ⟨d, ds, rfl⟩ := List.exists_cons_of_ne_nil h3
    obtain ⟨f1, f2, f3⟩ := digit_facts d (hd d List.mem_cons_self)
    have hs : ((blank ++ (sign ++ ((d :: ds) ++ rest))).dropWhile isSpace) = sign ++ ((d :: ds) ++ rest) := by
      refine (takeWhile_split (fun b hb => (blank_iff b).mp (h1 b hb)) ?_).2
      intro b hb
      rcases h2 with rfl | rfl | rfl
      · cases hb; exact f1
      · cases hb; decide
      · cases hb; decide
    have ht : ((d :: ds) ++ rest).takeWhile isDigit = d :: ds := by
      refine (takeWhile_split hd ?_).1
      intro b hb
      have := h5 b hb
      cases hx : isDigit b with
      | false => rfl
      | true => exact absurd ((digit_iff b).mp hx) this
    rw [em] at h6
    unfold Tools.stoi
    rw [hs]
    rcases h2 with rfl | rfl | rfl
    · simp only [List.nil_append, List.cons_append, List.head?_cons, Option.some.injEq, f2, f3, or_self, if_false] at ht ⊢
      rw [ht, if_neg (by simp)]
      rw [if_neg (by simp)] at h6
      have : n = (digitsVal (d :: ds) : Int) := by rw [h6]; unfold digitsVal; omega
      rw [← this, if_neg (by omega)]
    · simp only [ep, List.cons_append, List.nil_append, List.head?_cons, or_true, if_true, List.drop_succ_cons, List.drop_zero] at ht ⊢
      rw [ht, if_neg (by simp)]
      rw [if_neg (by rw [ep]; decide)] at h6
      have : n = (digitsVal (d :: ds) : Int) := by rw [h6]; unfold digitsVal; omega
      rw [if_neg (show ¬ (some (43 : UInt8) = some 45) by decide), ← this, if_neg (by omega)]
    · simp only [em, List.cons_append, List.nil_append, List.head?_cons, true_or, if_true, List.drop_succ_cons, List.drop_zero] at ht ⊢
      rw [ht, if_neg (by simp)]
      rw [if_pos em] at h6
      have : n = - (digitsVal (d :: ds) : Int) := by rw [h6]; unfold digitsVal; omega
      rw [← this, if_neg (by omega)]
  · intro h
    unfold Tools.stoi at h
    have hsplit := List.takeWhile_append_dropWhile (p := isSpace) (l := w)
    generalize hB : w.takeWhile isSpace = blank at hsplit
    have hb : ∀ b ∈ blank, Blank b := fun b hm => (blank_iff b).mpr (mem_takeWhile_true (hB ▸ hm))
    generalize w.dropWhile isSpace = t at h hsplit
    have parts : ∃ sign u, t = sign ++ u ∧ (sign = [] ∨ sign = ascii "+" ∨ sign = ascii "-") ∧
        (if t.head? = some 45 ∨ t.head? = some 43 then t.drop 1 else t) = u ∧ (t.head? = some 45 ↔ sign = ascii "-") := by
      by_cases h1 : t.head? = some 45
      · obtain ⟨t', rfl⟩ := List.head?_eq_some_iff.mp h1
        exact ⟨[45], t', rfl, .inr (.inr em.symm), by simp, by simp [em]⟩
      · by_cases h2 : t.head? = some 43
        · obtain ⟨t', rfl⟩ := List.head?_eq_some_iff.mp h2
          exact ⟨[43], t', rfl, .inr (.inl ep.symm), by simp, by simp [em]⟩
        · exact ⟨[], t, rfl, .inl rfl, by simp [h1, h2], by simp [em, h1]⟩
    obtain ⟨sign, u, rfl, p1, p2, p3⟩ := parts
    simp only [p2] at h
    simp only [p3] at h
    obtain ⟨v, hv⟩ : ∃ v : Int, v = if sign = ascii "-" then -(digitsVal (u.takeWhile isDigit) : Int) else digitsVal (u.takeWhile isDigit) := ⟨_, rfl⟩
    rw [← hv] at h
    by_cases hne : u.takeWhile isDigit = []
    · rw [if_pos hne] at h; cases h
    · rw [if_neg hne] at h
      by_cases hr : v < -2147483648 ∨ 2147483647 < v
      · rw [if_pos hr] at h; cases h
      · rw [if_neg hr] at h
        cases h
        refine ⟨blank, sign, u.takeWhile isDigit, u.dropWhile isDigit, ?_, hb, p1, hne, fun d hd => (digit_iff d).mp (mem_takeWhile_true hd), ?_, ?_, ?_⟩
        · rw [List.takeWhile_append_dropWhile, hsplit]
        · intro d hd hx
          have := dropWhile_head hd
          rw [(digit_iff d).mpr hx] at this
          cases this
        · rw [foldl_digits, hv]
          change _ = _ * ((digitsVal (u.takeWhile isDigit) : Nat) : Int)
          split <;> omega
        · omega

/-! ## Proofs: bsplit -/

theorem head_short {bts : Bytes} {n : Int} (h : bts.length < n.natAbs) (hs : bts.length < 2147483648) (h1 : -2147483648 ≤ n) (h2 : n ≤ 2147483647) :
    ∃ e, headOf bts n = .throws e := by
  unfold headOf rdBytes
  refine ⟨.outOfRange, ?_⟩
  by_cases hn : n < 0
  · have e : toInt32 (Tools.toSize ((bts.length : Int) + n)) = bts.length + n := by unfold toInt32 Tools.toSize; omega
    simp only [if_pos hn, e]
    rw [if_neg (by unfold Tools.toSize; omega)]; rfl
  · simp only [if_neg hn]
    rw [if_neg (by unfold Tools.toSize; omega)]; rfl

theorem tail_short {bts : Bytes} {n : Int} (h : bts.length < n.natAbs) (hs : bts.length < 2147483648) (h1 : -2147483648 ≤ n) (h2 : n ≤ 2147483647) :
    ∃ e, tailOf bts n = .throws e := by
  unfold tailOf rdBytes
  refine ⟨.outOfRange, ?_⟩
  by_cases hn : n < 0
  · have e : toInt32 (Tools.toSize ((bts.length : Int) + n)) = bts.length + n := by unfold toInt32 Tools.toSize; omega
    simp only [if_pos hn, e]
    rw [if_neg (by unfold Tools.toSize; omega)]; rfl
  · simp only [if_neg hn]
    rw [if_neg (by unfold Tools.toSize; omega)]; rfl

theorem head_part {bts : Bytes} {n : Int} (h : n.natAbs ≤ bts.length) (hs : bts.length < 2147483648) : ∃ p, headOf bts n = .ok p ∧ HeadPart n bts p := by
  by_cases hn : 0 ≤ n
  · obtain ⟨k, rfl⟩ := Int.eq_ofNat_of_zero_le hn
    refine ⟨_, head_take (by omega) (by omega), bts.drop k, (List.take_append_drop _ _).symm, ?_⟩
    rw [if_pos hn, List.length_take]; omega
  · obtain ⟨k, rfl⟩ : ∃ k : Nat, n = -(k : Int) := ⟨n.natAbs, by omega⟩
    refine ⟨_, head_drop (by omega) (by omega) hs, bts.drop (bts.length - k), (List.take_append_drop _ _).symm, ?_⟩
    rw [if_neg hn, List.length_drop]; omega

theorem tail_part {bts : Bytes} {n : Int} (h : n.natAbs ≤ bts.length) (hs : bts.length < 2147483648) : ∃ p, tailOf bts n = .ok p ∧ TailPart n bts p := by
  by_cases hn : 0 ≤ n
  · obtain ⟨k, rfl⟩ := Int.eq_ofNat_of_zero_le hn
    refine ⟨_, tail_nat (by omega) (by omega), bts.take (bts.length - k), (List.take_append_drop _ _).symm, ?_⟩
    rw [if_pos hn, List.length_drop]; omega
  · obtain ⟨k, rfl⟩ : ∃ k : Nat, n = -(k : Int) := ⟨n.natAbs, by omega⟩
    refine ⟨_, tail_neg (by omega) (by omega) hs, bts.take k, (List.take_append_drop _ _).symm, ?_⟩
    rw [if_neg hn, List.length_take]; omega

theorem bsplitHelp_eq : argHelpRest bsplitTold bsplitPos ++ [10] ++ bsplitNote ++ [10] = bsplitHelp := by decide +kernel

theorem helpFor_bsplit (name : Bytes) : helpFor name bsplitTold bsplitPos bsplitNote = ascii "Usage: " ++ name ++ bsplitHelp := by
  rw [← bsplitHelp_eq]; simp [helpFor, argHelp]

theorem intValue {uses : List Use} (hu : ∀ u ∈ uses, IsUse bsplitOpts u) {i : Nat} {names : List Bytes} (hi : bsplitOpts[i]? = some (intOpt names)) :
    (word uses names = none ∧ lastValue uses i = none) ∨ ∃ w n, word uses names = some w ∧ IntWord w n ∧ lastValue uses i = some (.num n) := by
  rcases value_cases (disjoint_of (by decide +kernel)) hu hi rfl with ⟨-, h1, h2⟩ | ⟨w, v, -, h1, h2, h3⟩
  · exact .inl ⟨h1, h2⟩
  · obtain ⟨n, h4, rfl⟩ := Option.map_eq_some_iff.mp h2
    exact .inr ⟨w, n, h1, (intWord_iff w n).mpr h4, h3⟩

theorem intWord_range {w : Bytes} {n : Int} (h : IntWord w n) : -2147483648 ≤ n ∧ n ≤ 2147483647 := by
  obtain ⟨_, _, _, _, -, -, -, -, -, -, -, h⟩ := h
  exact h

/-- **C115**, bsplit: every run, by what is on the command line and in the file. Missing: files of 2^31 bytes and more (C46). -/
theorem C115_bsplit_partial (files : Bytes → Option Bytes) (hs : ∀ n data, files n = some data → data.length < 2 ^ 31) (name : Bytes) (args : List Bytes) :
    BsplitRun files name args (bsplit args files) (bsplitSays files name args) := by
  have hh := asksHelp_iff (opts := bsplitOpts) rfl bsplitPos args
  have hb : bsplitTold.map (·.1) = bsplitOpts := rfl
  unfold bsplit bsplitSays
  simp only [helpFor_bsplit, hb]
  cases h0 : ((getArgs bsplitOpts bsplitPos args).vals 0).isSome with
  | true => simp only [if_true]; exact .help (hh.mp h0)
  | false =>
    have hn : ¬ AsksHelp bsplitOpts args := fun h => by rw [hh.mpr h] at h0; cases h0
    simp only [Bool.false_eq_true, if_false]
    cases hsu : (getArgs bsplitOpts bsplitPos args).success with
    | false =>
      simp only [if_true]
      obtain ⟨uses, rest, h1, h2, h3⟩ := C95_message hsu
      have := BsplitRun.usage (files := files) (name := name) hn h1 h2 h3
      rw [← printError_eq] at this
      exact this
    | true =>
      simp only [Bool.true_eq_false, if_false]
      obtain ⟨uses, inFile, outFile, h1, h2, h3⟩ := twoNames_of (opts := bsplitOpts) rfl rfl hsu
      change Accounts bsplitOpts bsplitPos args uses [inFile, outFile] at h1
      change (getArgs bsplitOpts bsplitPos args).vals = _ at h2
      change (getArgs bsplitOpts bsplitPos args).positional = _ at h3
      simp only [h2, h3, List.headD_cons, List.getD_cons_succ, List.getD_cons_zero]
      cases hf : files inFile with
      | none => exact .input hn h1 hf
      | some data =>
        have hl := hs _ _ hf
        simp only
        rcases intValue h1.uses (i := 1) rfl with ⟨a1, a2⟩ | ⟨w, n, a1, a2, a3⟩ <;> rcases intValue h1.uses (i := 2) rfl with ⟨b1, b2⟩ | ⟨w', n', b1, b2, b3⟩
        · simp only [a2, b2, Option.isSome_none, if_true]
          exact .choice hn h1 hf (by simp [a1, b1])
        · simp only [a2, b3, Option.isSome_none, Option.isSome_some, Bool.false_eq_true, if_false, Tools.numOf]
          obtain ⟨r1, r2⟩ := intWord_range b2
          by_cases hk : n'.natAbs ≤ data.length
          · obtain ⟨p, p1, p2⟩ := tail_part hk (by omega)
            rw [p1]
            exact .tail hn h1 hf b1 a1 b2 p2
          · obtain ⟨e, p1⟩ := tail_short (bts := data) (n := n') (by omega) (by omega) r1 r2
            rw [p1]
            exact .short hn h1 hf (.inr ⟨b1, a1⟩) b2 (by omega)
        · simp only [a3, b2, Option.isSome_none, Option.isSome_some, Bool.true_eq_false, if_false, if_true, Tools.numOf]
          obtain ⟨r1, r2⟩ := intWord_range a2
          by_cases hk : n.natAbs ≤ data.length
          · obtain ⟨p, p1, p2⟩ := head_part hk (by omega)
            rw [p1]
            exact .head hn h1 hf a1 b1 a2 p2
          · obtain ⟨e, p1⟩ := head_short (bts := data) (n := n) (by omega) (by omega) r1 r2
            rw [p1]
            exact .short hn h1 hf (.inl ⟨a1, b1⟩) a2 (by omega)
        · simp only [a3, b3, Option.isSome_some, if_true]
          exact .choice hn h1 hf (by simp [a1, b1])

/-! ## Proofs: the other tools -/

theorem input_text : ascii "Failed to open input" ++ [10] = ascii "Failed to open input\n" := by decide +kernel

/-- **C115**, baselinify: it complains, ends with 1 and leaves all files as they are; or its words are right, and it says nothing of its own. -/
theorem C115_baselinify (lib : Jpeg.Library) (buffer : Bytes) (fs : Files) (args : List Bytes) :
    (Complains (ascii "baselinify <infile> <outfile> (\"-\" for stdin/stdout)") 2 fs.input args (baselinifySays fs args).stderr ∧ (baselinifySays fs args).stdout = [] ∧
      baselinifyRun lib buffer fs args = { out := .ok 1, files := fs }) ∨
    ((∃ data, Opens 2 fs.input args data) ∧ baselinifySays fs args = {}) := by
  have hu : ascii "Usage: baselinify <infile> <outfile> (\"-\" for stdin/stdout)" ++ [10] =
      ascii "Usage: " ++ ascii "baselinify <infile> <outfile> (\"-\" for stdin/stdout)" ++ ascii "\n" := by decide +kernel
  by_cases hl : args.length = 2
  · obtain ⟨a, b, rfl⟩ := List.length_eq_two.mp hl
    cases hi : fs.input a with
    | none =>
      refine .inl ⟨?_, ?_, ?_⟩
      · simp only [baselinifySays, hi, input_text]
        exact .input rfl rfl hi
      · simp only [baselinifySays, hi]
      · simp only [baselinifyRun, hi]
    | some data => exact .inr ⟨⟨data, rfl, a, [b], rfl, hi⟩, by simp only [baselinifySays, hi]⟩
  · have e : baselinifySays fs args = { stderr := ascii "Usage: " ++ ascii "baselinify <infile> <outfile> (\"-\" for stdin/stdout)" ++ ascii "\n" } := by
      rw [← hu]
      match args, hl with
      | [], _ => rfl
      | [a], _ => rfl
      | [a, b], hl => exact absurd rfl hl
      | a :: b :: c :: l, _ => rfl
    rw [e]
    exact .inl ⟨.usage hl, rfl, (C93_words fs hl).1 lib buffer⟩

/-- **C115**, ippdecode: it complains, shows nothing and ends with 1; or its words are right, and when it ends either it shows something and says nothing on the
standard error, or it shows nothing and says that there was an exception. -/
theorem C115_ippdecode (dump : Ipp.Json → Bytes) (read : Bytes → Option Bytes) (args : List Bytes) :
    (Complains (ascii "ippdecode [file]") 1 read args (ippdecodeSays read args) ∧ Ipp.ippdecode dump read args = (.ok 1, [])) ∨
    (∃ data, Opens 1 read args data ∧
      (((∃ m, Ipp.decodeMsg data = .ok m) ∧ (Ipp.ippdecode dump read args).1 = .ok 0 ∧ (Ipp.ippdecode dump read args).2 ≠ [] ∧ ippdecodeSays read args = []) ∨
       ((∃ e, Ipp.decodeMsg data = .throws e) ∧ Ipp.ippdecode dump read args = (.ok 0, []) ∧ ippdecodeSays read args = ascii "Exception caught.\n") ∨
       (Ipp.decodeMsg data = .ub ∧ (Ipp.ippdecode dump read args).1 = .ub))) := by
  have hu : ascii "Usage: ippdecode [file]" ++ [10] = ascii "Usage: " ++ ascii "ippdecode [file]" ++ ascii "\n" := by decide +kernel
  have he : ascii "Exception caught." ++ [10] = ascii "Exception caught.\n" := by decide +kernel
  by_cases hl : args.length = 1
  · obtain ⟨a, rfl⟩ := List.length_eq_one_iff.mp hl
    cases hi : read a with
    | none =>
      refine .inl ⟨?_, by simp only [Ipp.ippdecode, hi]⟩
      simp only [ippdecodeSays, hi, input_text]
      exact .input rfl rfl hi
    | some data =>
      refine .inr ⟨data, ⟨rfl, a, [], rfl, hi⟩, ?_⟩
      cases hd : Ipp.decodeMsg data with
      | ok m =>
        refine .inl ⟨⟨m, rfl⟩, by simp only [Ipp.ippdecode, hi, hd], ?_, by simp only [ippdecodeSays, hi, hd]⟩
        simp only [Ipp.ippdecode, hi, hd, Ipp.showMsg]
        intro h
        have := congrArg List.length h
        have hx : 0 < (ascii "IPP operation or status: ").length := by decide +kernel
        simp only [List.length_append, List.length_nil] at this
        omega
      | throws e => exact .inr (.inl ⟨⟨e, rfl⟩, by simp only [Ipp.ippdecode, hi, hd], by simp only [ippdecodeSays, hi, hd, he]⟩)
      | ub => exact .inr (.inr ⟨rfl, by simp only [Ipp.ippdecode, hi, hd]⟩)
      | hang => exact absurd hd (Ipp.C23_decoding_ends data)
  · have e : ippdecodeSays read args = ascii "Usage: " ++ ascii "ippdecode [file]" ++ ascii "\n" ∧ Ipp.ippdecode dump read args = (.ok 1, []) := by
      rw [← hu]
      match args, hl with
      | [], _ => exact ⟨rfl, rfl⟩
      | [a], hl => exact absurd rfl hl
      | a :: b :: l, _ => exact ⟨rfl, rfl⟩
    rw [e.1]
    exact .inl ⟨.usage hl, e.2⟩

/-- **C115**, pwg2ppm: with other than two words it shows its usage, ends with 1 and leaves all files as they are; otherwise there is the report of C114, in which
a file that is not there is an empty one that is of unknown format. -/
theorem C115_pwg2ppm (describePwg : Raster.PwgHdr → Bytes) (describeUrf : Raster.UrfHdr → Bytes) (fs : Files) (args : List Bytes) :
    (args.length ≠ 2 ∧ pwgSays describePwg describeUrf fs args = ascii "Usage: pwg2ppm <infile> <outfile prefix>\n" ∧ pwgRun fs args = { out := .ok 1, files := fs }) ∨
    ∃ inFile pre, args = [inFile, pre] ∧
      (fs.read inFile = none → pwgSays describePwg describeUrf fs args = ascii "File is 0 long\nUnknown file format\n" ∧ pwgRun fs args = { out := .ok 1, files := fs }) ∧
      ∀ file, fs.read inFile = some file → pwgSays describePwg describeUrf fs args = Raster.pwg2ppmSays describePwg describeUrf file ∧
        (pwgRun fs args).out = (Raster.pwg2ppmRun pre file).2 := by
  have hu : ascii "Usage: pwg2ppm <infile> <outfile prefix>" ++ [10] = ascii "Usage: pwg2ppm <infile> <outfile prefix>\n" := by decide +kernel
  by_cases hl : args.length = 2
  · obtain ⟨a, b, rfl⟩ := List.length_eq_two.mp hl
    refine .inr ⟨a, b, rfl, fun h => ⟨?_, ?_⟩, fun file h => ⟨?_, ?_⟩⟩
    · have e1 : matchBytes (ascii "RaS2") [] = none := by decide +kernel
      have e2 : matchBytes (ascii "UNIRAST") [] = none := by decide +kernel
      simp only [pwgSays, h, Option.getD_none, Raster.pwg2ppmSays, e1, e2]
      decide +kernel
    · simp only [pwgRun, h, Option.getD_none]; rfl
    · simp only [pwgSays, h, Option.getD_some]
    · simp only [pwgRun, h, Option.getD_some]
  · refine .inl ⟨hl, ?_, (C93_words fs hl).2⟩
    rw [← hu]
    match args, hl with
    | [], _ => rfl
    | [a], _ => rfl
    | [a, b], hl => exact absurd rfl hl
    | a :: b :: c :: l, _ => rfl

/-- **C115** fails for minimime, which shows an empty line for a file that is not there, and ends with 0. -/
theorem C115_missing_false : ¬ C115_missing := by
  intro h
  have := (h (fun _ => none) [] rfl).1
  cases this

/-- **C115** fails for ippdecode, which ends with 0 after it has told of an exception. -/
theorem C115_code_false : ¬ C115_code := by
  intro h
  exact h (fun _ => []) (fun _ => some []) [[]] (by decide +kernel) (by decide +kernel)

/-! ## Cases that meet the hypotheses -/

example : IntWord (ascii " -12x") (-12) := (intWord_iff _ _).mpr (by decide +kernel)

example : HeadPart (-1) [1, 2, 3] [1, 2] ∧ TailPart 2 [1, 2, 3] [2, 3] := ⟨⟨[3], rfl, rfl⟩, ⟨[1], rfl, rfl⟩⟩

/-- What bsplit says to these words, in a directory without files and in one with short ones -/
example : bsplitSays (fun _ => none) (ascii "bsplit") [ascii "a", ascii "b"] = { stderr := ascii "Failed to open input\n" } ∧
    bsplitSays (fun _ => some []) (ascii "bsplit") [ascii "a", ascii "b"] = { stderr := ascii "Please give --head *or* --tail.\n" } ∧
    (bsplitSays (fun _ => some []) (ascii "bsplit") [ascii "--head", ascii "x"]).stdout = [] := by decide +kernel

example : ∀ n data, (fun _ : Bytes => some [1, 2, 3]) n = some data → data.length < 2 ^ 31 := by
  intro n data h; cases h; decide

end Verif.Convert
