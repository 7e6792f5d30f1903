import Verif.Client.InfoProps
import Verif.Client.ShowProps

/-!
# C82: how values are written
-/

namespace Verif.Client

open Verif.Ipp Verif.Text

namespace Spec

/-- The unit of a resolution, as RFC 8010 numbers them. -/
def unitName (u : UInt8) : Bytes := if u.toNat = 3 then ascii "dpi" else if u.toNat = 4 then ascii "dots/cm" else ascii "unknown"

/-- `w` is `v` with at least `n` digits, and more only where it needs them. -/
def Field (n v : Nat) (w : Bytes) : Prop := natural w = some (v : Int) ∧ n ≤ w.length ∧ (n < w.length → w.head? ≠ some 48)

/-- A date is written as `2000-01-02T00:00:57.300 GMT+0200`. -/
structure Dated (d : DateTime) (w : Bytes) : Prop where
  parts : ∃ y mo da h mi s f oh om : Bytes,
    Field 4 d.year.toNat y ∧ Field 2 d.month.toNat mo ∧ Field 2 d.day.toNat da ∧ Field 2 d.hour.toNat h ∧
    Field 2 d.minutes.toNat mi ∧ Field 2 d.seconds.toNat s ∧ Field 3 (d.deciSeconds.toNat * 100) f ∧
    Field 2 d.utcHOffset.toNat oh ∧ Field 2 d.utcMOffset.toNat om ∧
    w = y ++ [45] ++ mo ++ [45] ++ da ++ [84] ++ h ++ [58] ++ mi ++ [58] ++ s ++ [46] ++ f ++ [32, 71, 77, 84] ++ [d.plusMinus] ++ oh ++ om

mutual
/-- How a value is written. -/
inductive Written : Value → Bytes → Prop
  | text (s : Bytes) : Written (.str s) s
  | number {i : Int} {w : Bytes} : number w = some i → Written (.int i) w
  | yes : Written (.bool true) (ascii "true")
  | no : Written (.bool false) (ascii "false")
  | range {l h : Int} {a b : Bytes} : number a = some l → number b = some h → Written (.range l h) (a ++ ascii "-" ++ b)
  | res {x y : UInt32} {u : UInt8} {a b : Bytes} : natural a = some (x.toNat : Int) → natural b = some (y.toNat : Int) →
      Written (.res x y u) (a ++ ascii "x" ++ b ++ unitName u)
  | date {d : DateTime} {w : Bytes} : Dated d w → Written (.date d) w
  | set {l : List Value} {ws : List Bytes} : WrittenAll l ws → Written (.set l) ((ascii ", ").intercalate ws)
  | coll (m : List (Bytes × (UInt8 × Value))) : Written (.coll m) (ascii "<collection>")
/-- How values are written. -/
inductive WrittenAll : List Value → List Bytes → Prop
  | nil : WrittenAll [] []
  | cons {v : Value} {w : Bytes} {l : List Value} {ws : List Bytes} : Written v w → WrittenAll l ws → WrittenAll (v :: l) (w :: ws)
end

end Spec

theorem digitsVal_zeros (k : Nat) (l : Bytes) : digitsVal (List.replicate k 48 ++ l) = digitsVal l := by
  induction k with
  | zero => rfl
  | succ k ih =>
    rw [List.replicate_succ, List.cons_append]
    simp only [digitsVal, List.foldl_cons] at ih ⊢
    exact ih

theorem dec_front (v : Nat) (h : 0 < v) : (dec v).head? ≠ some 48 := by
  fun_induction dec v with
  | case1 n hn =>
    simp only [List.head?_cons, ne_eq, Option.some.injEq]
    intro he
    have := congrArg UInt8.toNat he
    simp at this
    omega
  | case2 n hn ih =>
    rw [List.head?_append_of_ne_nil _ (dec_ne_nil _)]
    exact ih (by omega)

theorem padded_field (n v : Nat) (hn : 0 < n) : Spec.Field n v (padded n v) := by
  have hd : ∀ c ∈ padded n v, isDigit c = true := by
    intro c hc
    rcases List.mem_append.mp hc with hc | hc
    · rw [List.eq_of_mem_replicate hc]; decide
    · exact dec_digits v c hc
  refine ⟨?_, by simp [padded]; omega, ?_⟩
  · rw [Spec.natural, if_pos ⟨by simp [padded, dec_ne_nil], hd⟩]
    rw [padded, digitsVal_zeros, digitsVal_dec]
  · intro hl
    have h0 : n - (dec v).length = 0 := by simp [padded] at hl; omega
    rw [padded, h0]
    refine dec_front v (Nat.pos_of_ne_zero ?_)
    rintro rfl
    simp only [padded, h0, List.replicate_zero, List.nil_append] at hl
    have : (dec 0).length = 1 := by decide +kernel
    omega

theorem unit_name (u : UInt8) : (if u = 3 then ascii "dpi" else if u = 4 then ascii "dots/cm" else ascii "unknown") = Spec.unitName u := by
  have h3 : u = 3 ↔ u.toNat = 3 := by rw [← UInt8.toNat_inj]; rfl
  have h4 : u = 4 ↔ u.toNat = 4 := by rw [← UInt8.toNat_inj]; rfl
  simp only [Spec.unitName, h3, h4]

theorem toStr_dated (d : DateTime) : Spec.Dated d d.toStr :=
  ⟨_, _, _, _, _, _, _, _, _, padded_field _ _ (by decide), padded_field _ _ (by decide), padded_field _ _ (by decide), padded_field _ _ (by decide), padded_field _ _ (by decide), padded_field _ _ (by decide),
    padded_field _ _ (by decide), padded_field _ _ (by decide), padded_field _ _ (by decide), by
      rw [DateTime.toStr, show ascii "-" = [45] from by decide +kernel, show ascii "T" = [84] from by decide +kernel,
        show ascii ":" = [58] from by decide +kernel, show ascii "." = [46] from by decide +kernel,
        show ascii " GMT" = [32, 71, 77, 84] from by decide +kernel]⟩

theorem listed_intercalate (f : Value → Bytes) (l : List Value) : listed f l = (ascii ", ").intercalate (l.map f) := by
  rw [← join_intercalate]
  induction l with
  | nil => rfl
  | cons v r ih =>
    rw [listed, ih]
    cases r with
    | nil => simp [joinString]
    | cons u r => simp only [List.map_cons]; rw [joinString_cons, if_neg (by simp)]

mutual
/-- **C82**: what `ippclient` shows of a value is the value: texts as they are, numbers, ranges and resolutions in digits with the
unit, sets with commas between the values. -/
theorem C82_written : ∀ v : Value, Spec.Written v (showValue v)
  | .str s => by rw [showValue]; exact .text s
  | .int i => by rw [showValue]; exact .number (number_show i)
  | .bool true => by rw [showValue]; exact .yes
  | .bool false => by rw [showValue]; exact .no
  | .range l h => by rw [showValue]; exact .range (number_show l) (number_show h)
  | .res x y u => by rw [showValue, showRes, unit_name]; exact .res (natural_dec _) (natural_dec _)
  | .date d => by rw [showValue]; exact .date (toStr_dated d)
  | .set l => by rw [showValue, showValues_listed, listed_intercalate]; exact .set (written_all l)
  | .coll m => by rw [showValue]; exact .coll m
theorem written_all : ∀ l : List Value, Spec.WrittenAll l (l.map showValue)
  | [] => .nil
  | v :: l => .cons (C82_written v) (written_all l)
end

/-- **C82**: of what the printer does not declare, the hint says that it is not supported. -/
theorem C82_none (s : Setting) (pref : Bytes) (pa : Attrs) (h : ∀ tag v, KMap.get? pa (s.name ++ ascii "-supported") ≠ some (tag, v)) :
    supportedStr s pa = ascii "unsupported" ∧ preferredStr s pref pa = ascii "unsupported" := by
  have hn : KMap.get? pa (s.name ++ ascii "-supported") = none := by
    cases hk : KMap.get? pa (s.name ++ ascii "-supported") with
    | none => rfl
    | some a => exact absurd hk (h a.1 a.2)
  rw [supportedStr, preferredStr, hn]
  exact ⟨rfl, rfl⟩

/-- **C82**: the hint for the resolutions is `empty` if and only if none of them is in dots per inch. -/
theorem C82_empty (l : List Value) : resolutionList l = ascii "empty" ↔ ∀ x y, Value.res x y 3 ∉ l := by
  have key : showResolutions true l = [] ↔ ∀ x y, Value.res x y 3 ∉ l := by
    induction l with
    | nil => simp [showResolutions]
    | cons v r ih =>
      cases v with
      | res x y u =>
        rw [showResolutions]
        by_cases hu : u = 3
        · subst hu
          simp only [ne_eq, not_true, if_false, if_true, List.nil_append, List.append_eq_nil_iff]
          constructor
          · rintro ⟨h, _⟩
            simp [showRes, dec_ne_nil] at h
          · intro h
            exact absurd (List.mem_cons_self ..) (h x y)
        · rw [if_pos hu, ih]
          constructor
          · intro h a b hm
            rcases List.mem_cons.mp hm with hm | hm
            · simp only [Value.res.injEq] at hm; exact hu hm.2.2.symm
            · exact h a b hm
          · exact fun h a b hm => h a b (List.mem_cons_of_mem _ hm)
      | _ =>
        rw [showResolutions, ih]
        · simp
        · simp
  rw [resolutionList]
  by_cases h : showResolutions true l = []
  · rw [if_pos h]; exact ⟨fun _ => key.mp h, fun _ => rfl⟩
  · rw [if_neg h]
    refine ⟨fun he => ?_, fun hk => absurd (key.mpr hk) h⟩
    exfalso
    rw [showResolutions_eq] at he h
    cases ht : dpiTexts l with
    | nil => rw [ht] at h; exact h rfl
    | cons t ts =>
      obtain ⟨x, y, _, rfl⟩ := (dpiTexts_mem l t).mp (by rw [ht]; exact List.mem_cons_self ..)
      obtain ⟨c, r, hc⟩ := List.exists_cons_of_ne_nil (dec_ne_nil x.toNat)
      have hd := dec_digits x.toNat c (by rw [hc]; exact List.mem_cons_self ..)
      rw [ht, List.flatten_cons, showRes, hc, show ascii "empty" = [101, 109, 112, 116, 121] from by decide +kernel] at he
      simp only [List.cons_append, List.cons.injEq] at he
      rw [he.1] at hd
      exact absurd hd (by decide)

/-- a printer that declares no copies; resolutions only in dots per centimetre; a date with a year of five digits -/
example : supportedStr sCopies [(ascii "sides-supported", (0x44, .str (ascii "one-sided")))] = ascii "unsupported" :=
  (C82_none sCopies [] _ (by intro tag v; rw [show KMap.get? [(ascii "sides-supported", ((0x44 : UInt8), Value.str (ascii "one-sided")))] (sCopies.name ++ ascii "-supported") = none from by decide +kernel]; simp)).1
example : resolutionList [.res 300 300 4] = ascii "empty" := (C82_empty _).mpr (by simp)
example : showValue (.set [.res 300 600 3, .range 1 (-2), .date { year := 12026, month := 2, day := 3, hour := 4, minutes := 5, seconds := 6, deciSeconds := 7 }]) =
    ascii "300x600dpi, 1--2, 12026-02-03T04:05:06.700 GMT+0000" := by decide +kernel

end Verif.Client
