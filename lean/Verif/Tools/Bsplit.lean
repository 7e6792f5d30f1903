import Verif.Tools.ArgsProps

/-! # The tool that splits files: utils/bsplit.cpp -/

namespace Verif.Tools

/-! ## Model -/

/-- conversion to `int` of a number that may not fit -/
def toInt32 (n : Int) : Int := (n + 2147483648) % 4294967296 - 2147483648

/-- conversion to `size_t` -/
def toSize (n : Int) : Nat := (n % 18446744073709551616).toNat

/-- How `main` ends. -/
inductive Done where
  /-- the help text, or an error message on `std::cerr` (the exit code) -/
  | said (code : Nat)
  /-- this was written to the file of this name -/
  | wrote (name content : Bytes)
  deriving DecidableEq, Repr

/-- Line 23-31 -/
def bsplitOpts : List Opt := [boolOpt [ascii "-h", ascii "--help"], intOpt [ascii "--head"], intOpt [ascii "--tail"]]

def bsplitPos : List Pos := [⟨ascii "input file", false⟩, ⟨ascii "output file", false⟩]

/-- The variable of an option of type `int`. -/
def numOf : Option Val → Int
  | some (.num i) => i
  | _ => 0

/-- Lines 65-69 (lines 61-64 can not be reached) -/
def headOf (bts : Bytes) (head : Int) : Outcome Bytes := do
  let head := if head < 0 then toInt32 (toSize ((bts.length : Int) + head)) else head
  let r ← rdBytes (toSize head) bts
  pure r.1

/-- Lines 77-82 (lines 73-76 can not be reached); `+=` moves the read position, and throws when it would leave the data. -/
def tailOf (bts : Bytes) (tail : Int) : Outcome Bytes := do
  let tail := if tail < 0 then toInt32 (toSize ((bts.length : Int) + tail)) else tail
  let r ← rdBytes (toSize ((bts.length : Int) - tail)) bts
  let r' ← rdBytes (toSize tail) r.2
  pure r'.1

/-- `main`, lines 15-89; `files` gives the contents of the files that can be opened. -/
def bsplit (args : List Bytes) (files : Bytes → Option Bytes) : Outcome Done :=
  let r := getArgs bsplitOpts bsplitPos args
  if (r.vals 0).isSome then .ok (.said 0)
  else if r.success = false then .ok (.said 1)
  else
    match files (r.positional.headD []) with
    | none => .ok (.said 1)
    | some bts =>
      if (r.vals 1).isSome = (r.vals 2).isSome then .ok (.said 1)
      else if (r.vals 1).isSome then (headOf bts (numOf (r.vals 1))).bind (fun b => .ok (.wrote (r.positional.getD 1 []) b))
      else (tailOf bts (numOf (r.vals 2))).bind (fun b => .ok (.wrote (r.positional.getD 1 []) b))

/-! ## Numbers on the command line -/

theorem dec_ne_nil (n : Nat) : dec n ≠ [] := by
  unfold dec; split <;> simp

theorem takeWhile_all {p : UInt8 → Bool} {l : Bytes} (h : ∀ b ∈ l, p b = true) : l.takeWhile p = l := by
  induction l with
  | nil => rfl
  | cons a l ih => rw [List.takeWhile_cons_of_pos (h a List.mem_cons_self), ih (fun b hb => h b (List.mem_cons_of_mem _ hb))]

theorem digit_facts : ∀ b : UInt8, isDigit b = true → isSpace b = false ∧ b ≠ 45 ∧ b ≠ 43 := by
  intro b h
  simp only [isDigit, decide_eq_true_eq] at h
  obtain ⟨h1, h2⟩ := h
  have h1 : 48 ≤ b.toNat := UInt8.le_iff_toNat_le.1 h1
  refine ⟨?_, ?_, ?_⟩
  · simp only [isSpace, decide_eq_false_iff_not]
    rintro (h | ⟨-, h⟩)
    · rw [h] at h1; exact absurd h1 (by decide)
    · have h : b.toNat ≤ 13 := UInt8.le_iff_toNat_le.1 h
      omega
  · rintro rfl; exact absurd h1 (by decide)
  · rintro rfl; exact absurd h1 (by decide)

theorem stoi_dec {k : Nat} (h : k ≤ 2147483647) : stoi (dec k) = some (k : Int) := by
  have hd := dec_digits k
  cases hk : dec k with
  | nil => exact absurd hk (dec_ne_nil k)
  | cons b bs =>
    obtain ⟨h1, h2, h3⟩ := digit_facts b (hd b (by rw [hk]; exact List.mem_cons_self))
    unfold stoi
    have e1 : List.dropWhile isSpace (b :: bs) = b :: bs := by rw [List.dropWhile_cons, if_neg (by simp [h1])]
    have hv : digitsVal (b :: bs) = k := by rw [← hk, digitsVal_dec]
    have tk : List.takeWhile isDigit (b :: bs) = b :: bs := takeWhile_all (by rw [← hk]; exact hd)
    simp [e1, h2, h3, tk, hv]
    omega

theorem stoi_neg {k : Nat} (h : k ≤ 2147483648) : stoi (45 :: dec k) = some (-(k : Int)) := by
  have hd := dec_digits k
  unfold stoi
  have e1 : List.dropWhile isSpace (45 :: dec k) = 45 :: dec k := by rw [List.dropWhile_cons, if_neg (by decide)]
  have tk : List.takeWhile isDigit (dec k) = dec k := takeWhile_all hd
  simp [e1, tk, digitsVal_dec, dec_ne_nil]
  omega

/-! ## Splitting -/

theorem toSize_nat {n : Nat} (h : n < 18446744073709551616) : toSize (n : Int) = n := by
  unfold toSize; omega

theorem head_take {bts : Bytes} {k : Nat} (hk : k ≤ bts.length) (hs : bts.length < 18446744073709551616) : headOf bts (k : Int) = .ok (bts.take k) := by
  unfold headOf
  simp only [if_neg (show ¬ (k : Int) < 0 by omega)]
  rw [toSize_nat (by omega)]
  simp [rdBytes, hk]

theorem allBut {n k : Nat} (h1 : 1 ≤ k) (hk : k ≤ n) (hn : n < 2147483648) : toInt32 (toSize ((n : Int) + -(k : Int))) = ((n - k : Nat) : Int) := by
  unfold toInt32 toSize; omega

theorem head_drop {bts : Bytes} {k : Nat} (h1 : 1 ≤ k) (hk : k ≤ bts.length) (hs : bts.length < 2147483648) :
    headOf bts (-(k : Int)) = .ok (bts.take (bts.length - k)) := by
  unfold headOf
  simp only [if_pos (show -(k : Int) < 0 by omega), allBut h1 hk hs]
  rw [toSize_nat (by omega)]
  simp [rdBytes]

theorem tail_nat {bts : Bytes} {k : Nat} (hk : k ≤ bts.length) (hs : bts.length < 18446744073709551616) :
    tailOf bts (k : Int) = .ok (bts.drop (bts.length - k)) := by
  unfold tailOf
  simp only [if_neg (show ¬ (k : Int) < 0 by omega)]
  have e : ((bts.length : Int) - (k : Int)) = ((bts.length - k : Nat) : Int) := by omega
  rw [e, toSize_nat (by omega), toSize_nat (by omega)]
  simp only [rdBytes]
  rw [if_pos (by omega)]
  simp only [Outcome.bind_ok, List.length_drop]
  rw [if_pos (by omega)]
  simp only [Outcome.bind_ok, Outcome.pure_eq]
  rw [List.take_of_length_le (by simp; omega)]

theorem tail_neg {bts : Bytes} {k : Nat} (h1 : 1 ≤ k) (hk : k ≤ bts.length) (hs : bts.length < 2147483648) :
    tailOf bts (-(k : Int)) = .ok (bts.drop k) := by
  have := tail_nat (bts := bts) (k := bts.length - k) (by omega) (by omega)
  unfold tailOf at this ⊢
  simp only [if_pos (show -(k : Int) < 0 by omega), allBut h1 hk hs]
  simp only [if_neg (show ¬ ((bts.length - k : Nat) : Int) < 0 by omega)] at this
  rw [this, show bts.length - (bts.length - k) = k by omega]

/-- How the four command lines are understood. -/
theorem bsplit_args {word inName outName : Bytes} {o : Bytes} {i : Nat} (ho : (o = ascii "--head" ∧ i = 1) ∨ (o = ascii "--tail" ∧ i = 2)) {n : Int}
    (hn : stoi word = some n) (hin : ∀ op ∈ bsplitOpts, inName ∉ op.names) : (getArgs bsplitOpts bsplitPos [o, word, inName, outName]).success = true ∧
      (∀ j, (getArgs bsplitOpts bsplitPos [o, word, inName, outName]).vals j = if j = i then some (.num n) else none) ∧
      (getArgs bsplitOpts bsplitPos [o, word, inName, outName]).positional = [inName, outName] := by
  have acc : Spec.Accounts bsplitOpts bsplitPos [o, word, inName, outName] [⟨i, [o, word], .num n⟩] [inName, outName] := by
    refine ⟨rfl, ?_, ?_, ?_, Nat.le_refl 2⟩
    · intro u hu
      rw [List.mem_singleton.1 hu]
      rcases ho with ⟨rfl, rfl⟩ | ⟨rfl, rfl⟩
      · refine ⟨_, ascii "--head", rfl, by decide +kernel, ?_, .inr ⟨_, word, rfl, rfl, by simp [hn]⟩⟩
        intro j o' hj h
        match j, hj, h with
        | 0, _, h => cases h; decide +kernel
      · refine ⟨_, ascii "--tail", rfl, by decide +kernel, ?_, .inr ⟨_, word, rfl, rfl, by simp [hn]⟩⟩
        intro j o' hj h
        match j, hj, h with
        | 0, _, h => cases h; decide +kernel
        | 1, _, h => cases h; decide +kernel
    · intro a ha; cases ha; exact hin
    · intro j p hp hj
      simp only [List.length_cons, List.length_nil] at hj
      match j, hj, hp with
      | j + 2, _, hp => simp [bsplitPos] at hp
  obtain ⟨h1, h2, h3⟩ := C45_complete acc
  refine ⟨h1, fun j => ?_, h3⟩
  rw [h2]
  by_cases hj : j = i
  · subst hj; simp [Spec.lastValue]
  · rw [if_neg hj]
    simp [Spec.lastValue, Ne.symm hj]

theorem bsplit_head {word inName outName : Bytes} {n : Int} (hn : stoi word = some n) (hin : ∀ op ∈ bsplitOpts, inName ∉ op.names)
    {files : Bytes → Option Bytes} {bts : Bytes} (hf : files inName = some bts) :
    bsplit [ascii "--head", word, inName, outName] files = (headOf bts n).bind (fun b => .ok (.wrote outName b)) := by
  obtain ⟨h1, h2, h3⟩ := bsplit_args (outName := outName) (.inl ⟨rfl, rfl⟩) hn hin
  unfold bsplit
  simp [h1, h2, h3, hf, numOf]

theorem bsplit_tail {word inName outName : Bytes} {n : Int} (hn : stoi word = some n) (hin : ∀ op ∈ bsplitOpts, inName ∉ op.names)
    {files : Bytes → Option Bytes} {bts : Bytes} (hf : files inName = some bts) :
    bsplit [ascii "--tail", word, inName, outName] files = (tailOf bts n).bind (fun b => .ok (.wrote outName b)) := by
  obtain ⟨h1, h2, h3⟩ := bsplit_args (outName := outName) (.inr ⟨rfl, rfl⟩) hn hin
  unfold bsplit
  simp [h1, h2, h3, hf, numOf]

/-- **C46.** For every file of less than 2^31 bytes and every `k` from 1 to its size, the two parts are the file, both ways.
Missing: larger files (`C46_false`). -/
theorem C46_split_partial {inName out1 out2 : Bytes} (hin : ∀ op ∈ bsplitOpts, inName ∉ op.names) {files : Bytes → Option Bytes} {bts : Bytes}
    (hf : files inName = some bts) (hs : bts.length < 2 ^ 31) {k : Nat} (h1 : 1 ≤ k) (hk : k ≤ bts.length) :
    (∃ x y, bsplit [ascii "--head", dec k, inName, out1] files = .ok (.wrote out1 x) ∧
      bsplit [ascii "--tail", ascii "-" ++ dec k, inName, out2] files = .ok (.wrote out2 y) ∧ x ++ y = bts ∧ x.length = k) ∧
    (∃ x y, bsplit [ascii "--head", ascii "-" ++ dec k, inName, out1] files = .ok (.wrote out1 x) ∧
      bsplit [ascii "--tail", dec k, inName, out2] files = .ok (.wrote out2 y) ∧ x ++ y = bts ∧ y.length = k) := by
  have hneg : ascii "-" ++ dec k = 45 :: dec k := rfl
  rw [hneg, bsplit_head (stoi_dec (by omega)) hin hf, bsplit_tail (stoi_neg (by omega)) hin hf, bsplit_head (stoi_neg (by omega)) hin hf,
    bsplit_tail (stoi_dec (by omega)) hin hf, head_take hk (by omega), tail_neg h1 hk (by omega), head_drop h1 hk (by omega), tail_nat hk (by omega)]
  refine ⟨⟨_, _, rfl, rfl, List.take_append_drop _ _, ?_⟩, ⟨_, _, rfl, rfl, List.take_append_drop _ _, ?_⟩⟩
  · rw [List.length_take]; omega
  · rw [List.length_drop]; omega

/-- **C46, where it fails.** A file of 2^31 + 1 bytes without its first byte: the size that is left does not fit an `int`, and an exception ends the tool. -/
theorem C46_false : ¬ ∀ (inName out : Bytes) (files : Bytes → Option Bytes) (bts : Bytes) (k : Nat), (∀ op ∈ bsplitOpts, inName ∉ op.names) →
    files inName = some bts → 1 ≤ k → k ≤ bts.length →
    ∃ y, bsplit [ascii "--tail", ascii "-" ++ dec k, inName, out] files = .ok (.wrote out y) := by
  intro h
  obtain ⟨y, hy⟩ := h (ascii "a") (ascii "b") (fun _ => some (List.replicate 2147483649 0)) _ 1 (by decide +kernel) rfl (by omega)
    (by rw [List.length_replicate]; omega)
  have hneg : ascii "-" ++ dec 1 = 45 :: dec 1 := rfl
  rw [hneg, bsplit_tail (inName := ascii "a") (stoi_neg (by omega)) (by decide +kernel) (files := fun _ => some (List.replicate 2147483649 0)) rfl] at hy
  unfold tailOf at hy
  simp only [List.length_replicate] at hy
  have e : toInt32 ↑(toSize (↑(2147483649 : Nat) + -↑(1 : Nat))) = -2147483648 := by decide
  simp only [if_pos (show (-(↑(1 : Nat) : Int)) < 0 by omega), e, rdBytes, List.length_replicate] at hy
  have e2 : toSize (↑(2147483649 : Nat) - (-2147483648)) = 4294967297 := by decide
  rw [e2, if_neg (by omega)] at hy
  cases hy

/-- a file and a number that meet the hypotheses, and what the tool does -/
example : (∀ op ∈ bsplitOpts, ascii "f" ∉ op.names) ∧ bsplit [ascii "--head", ascii "2", ascii "f", ascii "o"] (fun _ => some [1, 2, 3]) = .ok (.wrote (ascii "o") [1, 2]) ∧
    bsplit [ascii "--tail", ascii "-2", ascii "f", ascii "o"] (fun _ => some [1, 2, 3]) = .ok (.wrote (ascii "o") [3]) := by
  decide +kernel

end Verif.Tools
