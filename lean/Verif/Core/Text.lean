import Verif.Core.Bytes

/-!
# Text operations of the C++ library that the code uses, on bytes
-/

namespace Verif

/-- `isspace` in the C locale. -/
def isSpace (b : UInt8) : Bool := b = 32 ∨ (9 ≤ b ∧ b ≤ 13)

/-- `[0-9]` -/
def isDigit (b : UInt8) : Bool := 48 ≤ b ∧ b ≤ 57

/-- The number denoted by a string of digits. -/
def digitsVal (s : Bytes) : Nat := s.foldl (fun acc b => acc * 10 + (b.toNat - 48)) 0

/-- Decimal digits of a number, as `std::ostream << size_t` and `std::to_string` write them. -/
def dec (n : Nat) : Bytes :=
  if n < 10 then [UInt8.ofNat (48 + n)] else dec (n / 10) ++ [UInt8.ofNat (48 + n % 10)]

/-- `2^64 - 1`, `std::numeric_limits<size_t>::max()`. -/
def sizeMax : Nat := 2 ^ 64 - 1

/-- `std::stoul` (64-bit `unsigned long`): skips white space, takes an optional sign and the digits, ignores what
follows; no digits: `invalid_argument`; too large: `out_of_range`; a minus sign negates modulo 2^64. -/
def stoul (s : Bytes) : Outcome Nat :=
  let t := s.dropWhile isSpace
  let neg := t.head? = some 45
  let u := if t.head? = some 45 ∨ t.head? = some 43 then t.drop 1 else t
  let ds := u.takeWhile isDigit
  if ds = [] then .throws .invalidArgument
  else if digitsVal ds > sizeMax then .throws .outOfRange
  else .ok (if neg then (2 ^ 64 - digitsVal ds) % 2 ^ 64 else digitsVal ds)

theorem digitsVal_append_one (s : Bytes) (b : UInt8) : digitsVal (s ++ [b]) = digitsVal s * 10 + (b.toNat - 48) := by
  simp [digitsVal]

theorem digitsVal_dec (n : Nat) : digitsVal (dec n) = n := by
  fun_induction dec n with
  | case1 n h => simp [digitsVal]; omega
  | case2 n h ih =>
    rw [digitsVal_append_one, ih]
    have : (UInt8.ofNat (48 + n % 10)).toNat = 48 + n % 10 := by simp; omega
    rw [this]; omega

theorem isDigit_ofNat (k : Nat) (h : k < 10) : isDigit (UInt8.ofNat (48 + k)) = true := by
  have : (UInt8.ofNat (48 + k)).toNat = 48 + k := by simp; omega
  simp only [isDigit, decide_eq_true_eq, UInt8.le_iff_toNat_le, this]
  exact ⟨by show 48 ≤ _; omega, by show _ ≤ 57; omega⟩

theorem dec_digits (n : Nat) : ∀ b ∈ dec n, isDigit b = true := by
  fun_induction dec n with
  | case1 n h => simpa using isDigit_ofNat n h
  | case2 n h ih =>
    intro b hb
    simp only [List.mem_append, List.mem_singleton] at hb
    rcases hb with hb | rfl
    · exact ih b hb
    · exact isDigit_ofNat _ (by omega)

theorem dec_ne_nil (n : Nat) : dec n ≠ [] := by
  unfold dec; split <;> simp

theorem digit_not_space {b : UInt8} (h : isDigit b = true) : isSpace b = false := by
  simp only [isDigit, decide_eq_true_eq, UInt8.le_iff_toNat_le] at h
  have h1 : 48 ≤ b.toNat := h.1
  have hn : ¬ (b = 32 ∨ (9 ≤ b ∧ b ≤ 13)) := by
    rintro (rfl | ⟨h2, h3⟩)
    · simp at h1
    · have h3 : b.toNat ≤ 13 := h3
      omega
  simpa [isSpace] using hn

theorem digit_not_sign {b : UInt8} (h : isDigit b = true) : b ≠ 45 ∧ b ≠ 43 := by
  simp only [isDigit, decide_eq_true_eq, UInt8.le_iff_toNat_le] at h
  have h1 : 48 ≤ b.toNat := h.1
  constructor <;> rintro rfl <;> simp at h1

theorem takeWhile_all {α : Type} {p : α → Bool} {l r : List α} (h : ∀ a ∈ l, p a = true)
    (hr : ∀ a, r.head? = some a → p a = false) : (l ++ r).takeWhile p = l := by
  induction l with
  | nil =>
    cases r with
    | nil => rfl
    | cons a r => simp [hr a rfl]
  | cons a l ih =>
    rw [List.cons_append, List.takeWhile_cons, if_pos (h a (by simp)), ih (fun b hb => h b (by simp [hb]))]

theorem dropWhile_all {α : Type} {p : α → Bool} {l r : List α} (h : ∀ a ∈ l, p a = true)
    (hr : ∀ a, r.head? = some a → p a = false) : (l ++ r).dropWhile p = r := by
  induction l with
  | nil =>
    cases r with
    | nil => rfl
    | cons a r => simp [hr a rfl]
  | cons a l ih =>
    rw [List.cons_append, List.dropWhile_cons, if_pos (h a (by simp)), ih (fun b hb => h b (by simp [hb]))]

/-- On a string that starts with digits. -/
theorem stoul_digits (ds r : Bytes) (hne : ds ≠ []) (hd : ∀ b ∈ ds, isDigit b = true)
    (hr : ∀ a, r.head? = some a → isDigit a = false) :
    stoul (ds ++ r) = if digitsVal ds > sizeMax then .throws .outOfRange else .ok (digitsVal ds) := by
  obtain ⟨b, bs, rfl⟩ := List.exists_cons_of_ne_nil hne
  have hb := hd b (by simp)
  have hdrop : (b :: bs ++ r).dropWhile isSpace = b :: bs ++ r := by
    rw [List.cons_append, List.dropWhile_cons, if_neg (by simp [digit_not_space hb])]
  have h1 : ¬ ((b :: bs ++ r).head? = some 45) := by simpa using (digit_not_sign hb).1
  have h2 : ¬ ((b :: bs ++ r).head? = some 43) := by simpa using (digit_not_sign hb).2
  unfold stoul
  simp only [hdrop, h1, h2, or_self, if_false, takeWhile_all hd hr]
  rw [if_neg (by simp)]

theorem stoul_all_digits (ds : Bytes) (hne : ds ≠ []) (hd : ∀ b ∈ ds, isDigit b = true) :
    stoul ds = if digitsVal ds > sizeMax then .throws .outOfRange else .ok (digitsVal ds) := by
  have := stoul_digits ds [] hne hd (by simp)
  simpa using this

theorem stoul_dec (n : Nat) (h : n ≤ sizeMax) : stoul (dec n) = .ok n := by
  rw [stoul_all_digits _ (dec_ne_nil n) (dec_digits n), digitsVal_dec, if_neg (by omega)]

end Verif
