import Verif.Client.Show
import Verif.Ipp.SettingProps
import Verif.Text.Lemmas

/-!
# C82: what ippclient says about the supported values

When ippclient refuses a value it says which values are valid. The theorems read that text back and compare it with what is accepted.
-/

namespace Verif.Client

open Verif.Ipp Verif.Text
open Verif.Job (PrintJob)

namespace Spec

/-- A text taken apart at each comma that a space follows. -/
def words : Bytes → List Bytes
  | [] => [[]]
  | 44 :: 32 :: r => [] :: words r
  | c :: r => match words r with
    | w :: ws => (c :: w) :: ws
    | [] => [[c]]

/-- A natural number in decimal digits. -/
def natural (w : Bytes) : Option Int := if w ≠ [] ∧ ∀ b ∈ w, isDigit b = true then some (digitsVal w) else none

/-- A number in decimal digits, perhaps with a minus sign. -/
def number (w : Bytes) : Option Int :=
  match w with
  | 45 :: r => (natural r).map (fun n => -n)
  | _ => natural w

/-- What the printer declares under a name. -/
def Declared (pa : Attrs) (name : Bytes) (v : Value) : Prop := Ipp.Spec.Declares (KMap.get? pa name) v

/-- What the printer declares under a name are texts without comma. -/
def Texts (pa : Attrs) (name : Bytes) : Prop := ∀ v, Declared pa name v → ∃ t : Bytes, v = .str t ∧ (44 : UInt8) ∉ t

/-- What the printer declares under a name are numbers. -/
def Numbers (pa : Attrs) (name : Bytes) : Prop := ∀ v, Declared pa name v → ∃ i : Int, v = .int i

/-- How a resolution is written: `600x600dpi`. -/
def Dpi (w : Bytes) (x y : UInt32) : Prop :=
  ∃ a b, w = a ++ ascii "x" ++ b ++ ascii "dpi" ∧ natural a = some (x.toNat : Int) ∧ natural b = some (y.toNat : Int)

end Spec

/-! ## Words -/

theorem words_comma (r : Bytes) : Spec.words (44 :: 32 :: r) = [] :: Spec.words r := by rw [Spec.words]

theorem words_ne (s : Bytes) : Spec.words s ≠ [] := by
  fun_cases Spec.words s <;> simp_all

theorem words_char (c : UInt8) (r : Bytes) (h : c ≠ 44) :
    ∃ w ws, Spec.words r = w :: ws ∧ Spec.words (c :: r) = (c :: w) :: ws := by
  obtain ⟨w, ws, hw⟩ := List.exists_cons_of_ne_nil (words_ne r)
  refine ⟨w, ws, hw, ?_⟩
  rw [Spec.words.eq_3 _ _ (by rintro _ rfl; exact fun _ => h rfl), hw]

theorem words_plain (t : Bytes) (h : (44 : UInt8) ∉ t) : Spec.words t = [t] := by
  induction t with
  | nil => rfl
  | cons c t ih =>
    simp only [List.mem_cons, not_or] at h
    obtain ⟨w, ws, hw, hc⟩ := words_char c t (fun e => h.1 e.symm)
    rw [ih h.2] at hw
    simp only [List.cons.injEq] at hw
    rw [hc, ← hw.1, ← hw.2]

theorem words_append (t r : Bytes) (h : (44 : UInt8) ∉ t) : Spec.words (t ++ (44 :: 32 :: r)) = t :: Spec.words r := by
  induction t with
  | nil => exact words_comma r
  | cons c t ih =>
    simp only [List.mem_cons, not_or] at h
    obtain ⟨w, ws, hw, hc⟩ := words_char c (t ++ (44 :: 32 :: r)) (fun e => h.1 e.symm)
    rw [ih h.2] at hw
    simp only [List.cons.injEq] at hw
    rw [List.cons_append, hc, ← hw.1, ← hw.2]

/-- The texts with separators between them. -/
def listed (f : Value → Bytes) : List Value → Bytes
  | [] => []
  | v :: r => f v ++ (if r = [] then [] else ascii ", ") ++ listed f r

theorem words_listed (f : Value → Bytes) (l : List Value) (hne : l ≠ []) (h : ∀ v ∈ l, (44 : UInt8) ∉ f v) :
    Spec.words (listed f l) = l.map f := by
  induction l with
  | nil => exact absurd rfl hne
  | cons v r ih =>
    rw [listed]
    by_cases hr : r = []
    · subst hr
      simp only [if_pos, listed, List.append_nil, List.map_cons, List.map_nil]
      exact words_plain _ (h v (by simp))
    · rw [if_neg hr, show ascii ", " = [44, 32] from by decide +kernel]
      simp only [List.append_assoc, List.cons_append, List.nil_append]
      rw [words_append _ _ (h v (by simp)), ih hr (fun u hu => h u (by simp [hu])), List.map_cons]

theorem showValues_listed (l : List Value) : showValues l = listed showValue l := by
  induction l with
  | nil => rw [showValues, listed]
  | cons v r ih => rw [showValues, listed, ih]

theorem showMarked_listed (pref : Bytes) (p l : List Value) :
    showMarked pref p l = listed (fun v => showValue v ++ (if v ∈ p then ascii "(" ++ pref ++ ascii ")" else [])) l := by
  induction l with
  | nil => rw [showMarked, listed]
  | cons v r ih => rw [showMarked, listed, ih]

theorem show_asList (v : Value) : showValue v = listed showValue (asList v) := by
  cases v <;> simp [asList, listed, showValue, showValues_listed]

/-! ## Numbers -/

theorem natural_dec (n : Nat) : Spec.natural (dec n) = some (n : Int) := by
  rw [Spec.natural, if_pos ⟨dec_ne_nil n, dec_digits n⟩, digitsVal_dec]

theorem dec_head (n : Nat) : ∃ c r, dec n = c :: r ∧ c ≠ 45 := by
  obtain ⟨c, r, h⟩ := List.exists_cons_of_ne_nil (dec_ne_nil n)
  exact ⟨c, r, h, (digit_not_sign (dec_digits n c (by rw [h]; simp))).1⟩

theorem number_natural (w : Bytes) (h : w.head? ≠ some 45) : Spec.number w = Spec.natural w := by
  unfold Spec.number
  split
  · simp at h
  · rfl

theorem number_show (i : Int) : Spec.number (showInt i) = some i := by
  unfold showInt
  split
  · simp only [Spec.number, natural_dec, Option.map_some, Option.some.injEq]; omega
  · obtain ⟨c, r, h, hc⟩ := dec_head i.natAbs
    rw [number_natural _ (by rw [h]; simpa using hc), natural_dec]
    simp only [Option.some.injEq]; omega

theorem show_noComma (i : Int) : (44 : UInt8) ∉ showInt i := by
  have hd : ∀ n, (44 : UInt8) ∉ dec n := fun n hm => absurd (dec_digits n 44 hm) (by decide)
  unfold showInt
  split
  · simp only [List.mem_cons, not_or]; exact ⟨by decide, hd _⟩
  · exact hd _

/-! ## The hints -/

theorem declared_asList {pa : Attrs} {name : Bytes} {a : Attr} (h : KMap.get? pa name = some a) (v : Value) :
    Spec.Declared pa name v ↔ v ∈ asList a.2 := by
  unfold Spec.Declared; rw [h, declares_asList]

theorem supports_iff (s : Setting) (pa : Attrs) (v : Value) (ht : ∀ x, Spec.Declared pa (s.name ++ ascii "-supported") x → x.ty = some s.ty) :
    s.choiceSupports pa v = .ok true ↔ Spec.Declared pa (s.name ++ ascii "-supported") v := by
  obtain ⟨b, hb, hi⟩ := C54_choice s pa v ht
  rw [hb, Outcome.ok.injEq]; exact hi

/-- C82 for words: with texts without comma, the values that are accepted are exactly the words of the hint. -/
theorem C82_texts (s : Setting) (pa : Attrs) (w : Bytes) (hs : s.ty = .str) (ht : Spec.Texts pa (s.name ++ ascii "-supported"))
    (hne : ∃ v, Spec.Declared pa (s.name ++ ascii "-supported") v) :
    s.choiceSupports pa (.str w) = .ok true ↔ w ∈ Spec.words (supportedStr s pa) := by
  rw [supports_iff s pa _ (fun x hx => by obtain ⟨t, rfl, _⟩ := ht x hx; rw [hs]; rfl)]
  obtain ⟨v, hv⟩ := hne
  cases hg : KMap.get? pa (s.name ++ ascii "-supported") with
  | none => unfold Spec.Declared at hv; rw [hg] at hv; simp [Ipp.Spec.Declares] at hv
  | some a =>
    have hl : ∀ v ∈ asList a.2, ∃ t : Bytes, v = .str t ∧ (44 : UInt8) ∉ t := fun v hv => ht v ((declared_asList hg v).mpr hv)
    rw [declared_asList hg] at hv ⊢
    unfold supportedStr
    simp only [hg]
    rw [show_asList, words_listed showValue _ (List.ne_nil_of_mem hv) (fun v hv => by
      obtain ⟨t, rfl, h⟩ := hl v hv; rw [showValue]; exact h)]
    rw [List.mem_map]
    constructor
    · exact fun h => ⟨_, h, by rw [showValue]⟩
    · rintro ⟨u, hu, he⟩
      obtain ⟨t, rfl, _⟩ := hl u hu
      rw [showValue] at he; subst he; exact hu

/-- C82 for numbers: the numbers that are accepted are exactly those that the words of the hint denote. -/
theorem C82_numbers (s : Setting) (pa : Attrs) (i : Int) (hs : s.ty = .int) (ht : Spec.Numbers pa (s.name ++ ascii "-supported"))
    (hne : ∃ v, Spec.Declared pa (s.name ++ ascii "-supported") v) :
    s.choiceSupports pa (.int i) = .ok true ↔ ∃ w ∈ Spec.words (supportedStr s pa), Spec.number w = some i := by
  rw [supports_iff s pa _ (fun x hx => by obtain ⟨t, rfl⟩ := ht x hx; rw [hs]; rfl)]
  obtain ⟨v, hv⟩ := hne
  cases hg : KMap.get? pa (s.name ++ ascii "-supported") with
  | none => unfold Spec.Declared at hv; rw [hg] at hv; simp [Ipp.Spec.Declares] at hv
  | some a =>
    have hl : ∀ v ∈ asList a.2, ∃ i : Int, v = .int i := fun v hv => ht v ((declared_asList hg v).mpr hv)
    rw [declared_asList hg] at hv ⊢
    unfold supportedStr
    simp only [hg]
    rw [show_asList, words_listed showValue _ (List.ne_nil_of_mem hv) (fun v hv => by
      obtain ⟨t, rfl⟩ := hl v hv; rw [showValue]; exact show_noComma t)]
    simp only [List.mem_map]
    constructor
    · exact fun h => ⟨showInt i, ⟨_, h, by rw [showValue]⟩, number_show i⟩
    · rintro ⟨w, ⟨u, hu, he⟩, hn⟩
      obtain ⟨k, rfl⟩ := hl u hu
      rw [showValue] at he; subst he
      rw [number_show, Option.some.injEq] at hn
      subst hn; exact hu

/-- C82 for the media: the values that are accepted are exactly the words of the hint without the mark, and those that are marked are
exactly those that are loaded. -/
theorem C82_media (s : Setting) (pref : Bytes) (pa : Attrs) (w : Bytes) (hs : s.ty = .str) (hp : (44 : UInt8) ∉ pref)
    (ht : Spec.Texts pa (s.name ++ ascii "-supported")) (hm : ∀ u, ¬ Spec.Declared pa (s.name ++ ascii "-supported") (.str (u ++ (ascii "(" ++ pref ++ ascii ")"))))
    (hne : ∃ v, Spec.Declared pa (s.name ++ ascii "-supported") v) :
    (s.choiceSupports pa (.str w) = .ok true ↔
      w ++ (ascii "(" ++ pref ++ ascii ")") ∈ Spec.words (preferredStr s pref pa) ∨
        (w ∈ Spec.words (preferredStr s pref pa) ∧ ∀ u, w ≠ u ++ (ascii "(" ++ pref ++ ascii ")"))) ∧
    (w ++ (ascii "(" ++ pref ++ ascii ")") ∈ Spec.words (preferredStr s pref pa) ↔
      Spec.Declared pa (s.name ++ ascii "-supported") (.str w) ∧ Spec.Declared pa (s.name ++ ascii "-" ++ pref) (.str w)) := by
  rw [supports_iff s pa _ (fun x hx => by obtain ⟨t, rfl, _⟩ := ht x hx; rw [hs]; rfl)]
  obtain ⟨v, hv⟩ := hne
  have hM : (44 : UInt8) ∉ ascii "(" ++ pref ++ ascii ")" := by
    rw [show ascii "(" = [40] from by decide +kernel, show ascii ")" = [41] from by decide +kernel]
    simp only [List.mem_append, List.mem_singleton, not_or]
    exact ⟨⟨by decide, hp⟩, by decide⟩
  generalize hMe : ascii "(" ++ pref ++ ascii ")" = M at hM hm ⊢
  cases hg : KMap.get? pa (s.name ++ ascii "-supported") with
  | none => unfold Spec.Declared at hv; rw [hg] at hv; simp [Ipp.Spec.Declares] at hv
  | some a =>
    have hl : ∀ v ∈ asList a.2, ∃ t : Bytes, v = .str t ∧ (44 : UInt8) ∉ t := fun v hv => ht v ((declared_asList hg v).mpr hv)
    have hm' : ∀ u, .str (u ++ M) ∉ asList a.2 := fun u h => hm u ((declared_asList hg _).mpr h)
    rw [declared_asList hg] at hv ⊢
    unfold preferredStr
    simp only [hg]
    have hpr : ∃ p : List Value, preferredOf s pref pa = p ∧
        ∀ v, Spec.Declared pa (s.name ++ ascii "-" ++ pref) v ↔ v ∈ p := by
      refine ⟨_, rfl, fun v => ?_⟩
      unfold preferredOf
      cases hq : KMap.get? pa (s.name ++ ascii "-" ++ pref) with
      | none => unfold Spec.Declared; rw [hq]; simp [Ipp.Spec.Declares]
      | some q => exact declared_asList hq v
    obtain ⟨p, hpe, hpd⟩ := hpr
    rw [hpe, hpd, showMarked_listed, hMe]
    rw [words_listed _ _ (List.ne_nil_of_mem hv) (fun v hv => by
      obtain ⟨t, rfl, h⟩ := hl v hv
      simp only [showValue, List.mem_append, not_or]
      refine ⟨h, ?_⟩
      split
      · exact hM
      · simp)]
    have key : ∀ x, x ∈ (asList a.2).map (fun v => showValue v ++ if v ∈ p then M else []) ↔
        ∃ t, .str t ∈ asList a.2 ∧ x = t ++ (if .str t ∈ p then M else []) := by
      intro x
      rw [List.mem_map]
      constructor
      · rintro ⟨u, hu, rfl⟩
        obtain ⟨t, rfl, _⟩ := hl u hu
        exact ⟨t, hu, by simp only [showValue]⟩
      · rintro ⟨t, hu, rfl⟩
        exact ⟨_, hu, by simp only [showValue]⟩
    rw [key, key]
    have second : (∃ t, .str t ∈ asList a.2 ∧ w ++ M = t ++ (if .str t ∈ p then M else [])) ↔ .str w ∈ asList a.2 ∧ .str w ∈ p := by
      constructor
      · rintro ⟨t, ht, he⟩
        by_cases hin : Value.str t ∈ p
        · rw [if_pos hin] at he
          have := List.append_cancel_right he
          subst this
          exact ⟨ht, hin⟩
        · rw [if_neg hin, List.append_nil] at he
          subst he
          exact absurd ht (hm' w)
      · exact fun h => ⟨w, h.1, by rw [if_pos h.2]⟩
    refine ⟨?_, second⟩
    rw [second]
    constructor
    · intro h
      by_cases hin : Value.str w ∈ p
      · exact .inl ⟨h, hin⟩
      · refine .inr ⟨⟨w, h, by rw [if_neg hin, List.append_nil]⟩, ?_⟩
        rintro u rfl
        exact hm' u h
    · rintro (h | ⟨⟨t, ht, rfl⟩, hu⟩)
      · exact h.1
      · by_cases hin : Value.str t ∈ p
        · rw [if_pos hin] at hu; exact absurd rfl (hu t)
        · rw [if_neg hin, List.append_nil]; exact ht

/-- The rest of a range, once the first number has been read. -/
theorem range_rest {n : Nat} {b : Bytes} {a c : Bytes} (ha : ∀ x ∈ a, isDigit x = true) (he : dec n ++ 45 :: b = a ++ 45 :: c) : a = dec n ∧ c = b := by
  have h1 := takeWhile_all (l := dec n) (r := 45 :: b) (p := isDigit) (dec_digits n) (by simp; decide)
  have h2 := takeWhile_all (l := a) (r := 45 :: c) (p := isDigit) ha (by simp; decide)
  rw [he, h2] at h1
  subst h1
  simpa using (List.append_cancel_left he).symm

theorem number_cases {w : Bytes} {i : Int} (h : Spec.number w = some i) :
    (∃ r, w = 45 :: r ∧ Spec.natural r = some (-i)) ∨ (w.head? ≠ some 45 ∧ Spec.natural w = some i) := by
  unfold Spec.number at h
  split at h
  · rename_i r
    obtain ⟨n, hn, he⟩ := Option.map_eq_some_iff.mp h
    exact .inl ⟨r, rfl, by rw [hn, ← he]; simp⟩
  · rename_i hx
    refine .inr ⟨?_, h⟩
    cases w with
    | nil => simp
    | cons c w => intro hc; simp only [List.head?_cons, Option.some.injEq] at hc; subst hc; exact hx w rfl

theorem natural_digits {w : Bytes} {i : Int} (h : Spec.natural w = some i) : w ≠ [] ∧ ∀ b ∈ w, isDigit b = true := by
  unfold Spec.natural at h
  split at h
  · assumption
  · cases h

/-- A range is read in one way. -/
theorem range_read {l h : Int} {a b : Bytes} {x y : Int} (he : showRange l h = a ++ ascii "-" ++ b) (hx : Spec.number a = some x)
    (hy : Spec.number b = some y) : x = l ∧ y = h := by
  rw [showRange, show ascii "-" = [45] from by decide +kernel] at he
  simp only [List.append_assoc, List.cons_append, List.nil_append] at he
  suffices hs : a = showInt l ∧ b = showInt h by
    obtain ⟨rfl, rfl⟩ := hs
    rw [number_show, Option.some.injEq] at hx hy
    exact ⟨hx.symm, hy.symm⟩
  rcases number_cases hx with ⟨r, rfl, hr⟩ | ⟨hh, hn⟩
  · have hd := natural_digits hr
    by_cases hl : l < 0
    · unfold showInt at he
      rw [if_pos hl] at he
      simp only [List.cons_append, List.cons.injEq, true_and] at he
      obtain ⟨h1, h2⟩ := range_rest hd.2 he
      rw [show showInt l = 45 :: dec l.natAbs from by rw [showInt, if_pos hl]]
      exact ⟨by rw [h1], h2⟩
    · obtain ⟨c, t, ht, hc⟩ := dec_head l.natAbs
      rw [show showInt l = dec l.natAbs from by rw [showInt, if_neg hl], ht] at he
      simp only [List.cons_append, List.cons.injEq] at he
      exact absurd he.1 hc
  · have hd := natural_digits hn
    by_cases hl : l < 0
    · rw [show showInt l = 45 :: dec l.natAbs from by rw [showInt, if_pos hl]] at he
      obtain ⟨c, t, rfl⟩ := List.exists_cons_of_ne_nil hd.1
      simp only [List.cons_append, List.cons.injEq] at he
      rw [← he.1] at hh
      simp at hh
    · rw [show showInt l = dec l.natAbs from by rw [showInt, if_neg hl]] at he ⊢
      exact range_rest hd.2 he

/-- C82 for the number of copies: the numbers that are accepted are exactly those in the range that the hint denotes. -/
theorem C82_range (s : Setting) (pa : Attrs) (i l h : Int) (tag : UInt8) (ha : KMap.get? pa (s.name ++ ascii "-supported") = some (tag, .range l h)) :
    s.integerSupports pa i = .ok true ↔
      ∃ a b x y, supportedStr s pa = a ++ ascii "-" ++ b ∧ Spec.number a = some x ∧ Spec.number b = some y ∧ x ≤ i ∧ i ≤ y := by
  have hsup : s.integerSupports pa i = .ok (decide (i ≥ l ∧ i ≤ h)) := by
    unfold Setting.integerSupports Setting.isSupported Attrs.get
    rw [ha, if_pos (by unfold KMap.has; rw [ha]; rfl)]
    rfl
  have hstr : supportedStr s pa = showRange l h := by unfold supportedStr; rw [ha]; simp only [showValue]
  rw [hsup, hstr, Outcome.ok.injEq, decide_eq_true_eq]
  constructor
  · exact fun hi => ⟨showInt l, showInt h, l, h, rfl, number_show l, number_show h, hi.1, hi.2⟩
  · rintro ⟨a, b, x, y, he, hx, hy, h1, h2⟩
    obtain ⟨rfl, rfl⟩ := range_read he hx hy
    exact ⟨h1, h2⟩

/-! ## Quality -/

theorem words_join (l : List Bytes) (hne : l ≠ []) (h : ∀ t ∈ l, (44 : UInt8) ∉ t) : Spec.words (joinString (ascii ", ") l) = l := by
  induction l with
  | nil => exact absurd rfl hne
  | cons x l ih =>
    cases l with
    | nil => rw [joinString_one]; exact words_plain x (h x (by simp))
    | cons y l =>
      have e : ascii ", " = [44, 32] := by decide +kernel
      rw [e] at ih ⊢
      rw [joinString_cons, List.append_assoc, show x ++ ([44, 32] ++ joinString [44, 32] (y :: l)) = x ++ (44 :: 32 :: joinString [44, 32] (y :: l)) from rfl,
        words_append x _ (h x (by simp)), ih (by simp) (fun t ht => h t (by simp [ht]))]

namespace Spec

/-- The names of the qualities. -/
def qualities : List (Bytes × Int) := [(ascii "draft", 3), (ascii "normal", 4), (ascii "high", 5)]

end Spec

theorem alias_iff (v : Value) (w : Bytes) : qualityAlias v = .ok w ↔ ∃ q, v = .int q ∧ (w, q) ∈ Spec.qualities := by
  unfold qualityAlias Spec.qualities
  split
  · simp [eq_comm]
  · simp [eq_comm]
  · simp [eq_comm]
  · rename_i h3 h4 h5
    simp only [reduceCtorEq, List.mem_cons, Prod.mk.injEq, List.not_mem_nil, or_false, false_iff, not_exists, not_and]
    rintro q rfl (⟨_, rfl⟩ | ⟨_, rfl⟩ | ⟨_, rfl⟩)
    · exact h3 rfl
    · exact h4 rfl
    · exact h5 rfl

theorem names_of (l : List Value) (ns : List Bytes) (h : qualityNames l = .ok ns) :
    (∀ w, w ∈ ns ↔ ∃ v ∈ l, qualityAlias v = .ok w) ∧ (l = [] ↔ ns = []) := by
  induction l generalizing ns with
  | nil => rw [qualityNames, Outcome.ok.injEq] at h; subst h; simp
  | cons v l ih =>
    rw [qualityNames] at h
    obtain ⟨n, hn, h⟩ := Outcome.bind_eq_ok.mp h
    obtain ⟨m, hm, h⟩ := Outcome.bind_eq_ok.mp h
    simp only [Outcome.pure_eq, Outcome.ok.injEq] at h
    subst h
    refine ⟨fun w => ?_, by simp⟩
    simp only [List.mem_cons, (ih m hm).1, exists_eq_or_imp, hn, Outcome.ok.injEq]
    rw [eq_comm (a := w)]

theorem names_ok (l : List Value) (ns : List Bytes) (h : qualityNames l = .ok ns) (v : Value) (hv : v ∈ l) : ∃ w, qualityAlias v = .ok w := by
  induction l generalizing ns with
  | nil => cases hv
  | cons u l ih =>
    rw [qualityNames] at h
    obtain ⟨n, hn, h⟩ := Outcome.bind_eq_ok.mp h
    obtain ⟨m, hm, h⟩ := Outcome.bind_eq_ok.mp h
    rcases List.mem_cons.mp hv with rfl | hv
    · exact ⟨n, hn⟩
    · exact ih m hm hv

/-- C82 for the quality: the qualities that are accepted are exactly those that the hint names. -/
theorem C82_quality (pa : Attrs) (q : Int) (H : Bytes) (hH : qualityHint pa = .ok H) (hne : ∃ v, Spec.Declared pa (ascii "print-quality-supported") v) :
    sPrintQuality.choiceSupports pa (.int q) = .ok true ↔ ∃ w ∈ Spec.words H, (w, q) ∈ Spec.qualities := by
  unfold qualityHint at hH
  obtain ⟨l, hl, hH⟩ := Outcome.bind_eq_ok.mp hH
  obtain ⟨ns, hns, hH⟩ := Outcome.bind_eq_ok.mp hH
  simp only [Outcome.pure_eq, Outcome.ok.injEq] at hH
  subst hH
  obtain ⟨hmem, hnil⟩ := names_of l ns hns
  have hsup : sPrintQuality.choiceSupports pa (.int q) = .ok (decide (.int q ∈ l)) := by
    unfold Setting.choiceSupports; rw [hl]; rfl
  have hname : sPrintQuality.name ++ ascii "-supported" = ascii "print-quality-supported" := by decide +kernel
  have hlne : l ≠ [] := by
    rintro rfl
    obtain ⟨v, hv⟩ := hne
    unfold Setting.choices Attrs.getList at hl
    rw [hname] at hl
    cases hg : KMap.get? pa (ascii "print-quality-supported") with
    | none => unfold Spec.Declared at hv; rw [hg] at hv; simp [Ipp.Spec.Declares] at hv
    | some a =>
      rw [hg] at hl
      rw [declared_asList hg] at hv
      simp only at hl
      generalize asList a.2 = L at hl hv
      cases L with
      | nil => cases hv
      | cons x L =>
        rw [getAll] at hl
        obtain ⟨_, _, hl⟩ := Outcome.bind_eq_ok.mp hl
        obtain ⟨_, _, hl⟩ := Outcome.bind_eq_ok.mp hl
        simp at hl
  have hcomma : ∀ t ∈ ns, (44 : UInt8) ∉ t := by
    intro t ht
    obtain ⟨v, _, hv⟩ := (hmem t).mp ht
    obtain ⟨q, _, hq⟩ := (alias_iff v t).mp hv
    have hall : ∀ p ∈ Spec.qualities, (44 : UInt8) ∉ p.1 := by decide +kernel
    exact hall _ hq
  rw [hsup, Outcome.ok.injEq, decide_eq_true_eq, words_join ns (fun h => hlne (hnil.mpr h)) hcomma]
  constructor
  · intro h
    obtain ⟨w, hw⟩ := names_ok l ns hns _ h
    obtain ⟨q', hq, hq'⟩ := (alias_iff _ w).mp hw
    simp only [Value.int.injEq] at hq
    subst hq
    exact ⟨w, (hmem w).mpr ⟨_, h, hw⟩, hq'⟩
  · rintro ⟨w, hw, hq⟩
    obtain ⟨v, hv, ha⟩ := (hmem w).mp hw
    obtain ⟨q', rfl, hq'⟩ := (alias_iff v w).mp ha
    have hinj : ∀ p ∈ Spec.qualities, ∀ p' ∈ Spec.qualities, p.1 = p'.1 → p.2 = p'.2 := by decide +kernel
    have := hinj _ hq _ hq' rfl
    simp only at this
    subst this
    exact hv

/-! ## Resolutions -/

theorem natural_dec_iff {a : Bytes} {n m : Nat} (ha : a = dec n) (h : Spec.natural a = some (m : Int)) : m = n := by
  subst ha
  rw [natural_dec, Option.some.injEq] at h
  omega

theorem dec_stop {n : Nat} {a r t : Bytes} {c : UInt8} (hc : isDigit c = false) (ha : ∀ x ∈ a, isDigit x = true) (he : dec n ++ c :: r = a ++ c :: t) :
    a = dec n ∧ r = t := by
  have h1 := takeWhile_all (l := dec n) (r := c :: r) (p := isDigit) (dec_digits n) (by simpa using hc)
  have h2 := takeWhile_all (l := a) (r := c :: t) (p := isDigit) ha (by simpa using hc)
  rw [he, h2] at h1
  subst h1
  simpa using List.append_cancel_left he

/-- A resolution at the front of a text is read in one way. -/
theorem dpi_read {x y x' y' : UInt32} {w t t' : Bytes} (hw : Spec.Dpi w x' y') (he : showRes x y 3 ++ t = w ++ t') : x' = x ∧ y' = y ∧ t' = t := by
  obtain ⟨a, b, rfl, ha, hb⟩ := hw
  rw [showRes, if_pos rfl, show ascii "x" = [120] from by decide +kernel, show ascii "dpi" = [100, 112, 105] from by decide +kernel] at he
  simp only [List.append_assoc, List.cons_append, List.nil_append] at he
  obtain ⟨h1, he⟩ := dec_stop (by decide) (natural_digits ha).2 he
  obtain ⟨h2, he⟩ := dec_stop (by decide) (natural_digits hb).2 he
  simp only [List.cons.injEq, true_and] at he
  exact ⟨UInt32.toNat_inj.mp (natural_dec_iff h1 ha), UInt32.toNat_inj.mp (natural_dec_iff h2 hb), he.symm⟩

theorem dpi_show (x y : UInt32) : Spec.Dpi (showRes x y 3) x y :=
  ⟨dec x.toNat, dec y.toNat, by rw [showRes, if_pos rfl], natural_dec _, natural_dec _⟩

theorem showRes_inj {x y a b : UInt32} (h : showRes x y 3 = showRes a b 3) : x = a ∧ y = b := by
  have := dpi_read (t := []) (t' := []) (x := a) (y := b) (dpi_show x y) (by rw [h])
  exact ⟨this.1, this.2.1⟩

/-- The texts of the resolutions in dots per inch. -/
def dpiTexts : List Value → List Bytes
  | [] => []
  | .res x y u :: r => if u = 3 then showRes x y u :: dpiTexts r else dpiTexts r
  | _ :: r => dpiTexts r

theorem showResolutions_eq (l : List Value) : showResolutions true l = (dpiTexts l).flatten := by
  fun_induction dpiTexts l with
  | case1 => rfl
  | case2 x y r ih => rw [showResolutions, if_neg (by simp)]; simp [ih]
  | case3 x y u r h ih => rw [showResolutions, if_pos (by simpa using h)]; exact ih
  | case4 v r h ih => rw [showResolutions]; exact ih; exact h

theorem dpiTexts_mem (l : List Value) (w : Bytes) : w ∈ dpiTexts l ↔ ∃ x y, .res x y 3 ∈ l ∧ w = showRes x y 3 := by
  fun_induction dpiTexts l with
  | case1 => simp
  | case2 x y r ih =>
    simp only [List.mem_cons, ih, Value.res.injEq, and_true]
    constructor
    · rintro (rfl | ⟨a, b, h, rfl⟩)
      · exact ⟨x, y, .inl ⟨rfl, rfl⟩, rfl⟩
      · exact ⟨a, b, .inr h, rfl⟩
    · rintro ⟨a, b, ⟨rfl, rfl⟩ | h, rfl⟩
      · exact .inl rfl
      · exact .inr ⟨a, b, h, rfl⟩
  | case3 x y u r h ih =>
    simp only [List.mem_cons, ih, Value.res.injEq]
    constructor
    · rintro ⟨a, b, h, rfl⟩; exact ⟨a, b, .inr h, rfl⟩
    · rintro ⟨a, b, ⟨_, _, h'⟩ | h, rfl⟩
      · exact absurd h'.symm h
      · exact ⟨a, b, h, rfl⟩
  | case4 v r h ih =>
    simp only [List.mem_cons, ih]
    constructor
    · rintro ⟨a, b, h, rfl⟩; exact ⟨a, b, .inr h, rfl⟩
    · rintro ⟨a, b, h' | h', rfl⟩
      · exact absurd h'.symm (h a b 3)
      · exact ⟨a, b, h', rfl⟩

theorem flatten_read (ts ws : List Bytes) (ht : ∀ t ∈ ts, ∃ x y, t = showRes x y 3) (hw : ∀ w ∈ ws, ∃ x y, Spec.Dpi w x y)
    (he : ts.flatten = ws.flatten) : ∀ x y, (∃ w ∈ ws, Spec.Dpi w x y) → showRes x y 3 ∈ ts := by
  have pos : ∀ x y (t : Bytes), showRes x y 3 ++ t ≠ [] := by
    intro x y t h
    simp only [showRes, List.append_eq_nil_iff] at h
    exact dec_ne_nil _ h.1.1.1.1
  have pos' : ∀ {w : Bytes} {x y}, Spec.Dpi w x y → ∀ t : Bytes, w ++ t ≠ [] := by
    rintro w x y ⟨a, b, rfl, ha, _⟩ t h
    simp only [List.append_eq_nil_iff] at h
    exact (natural_digits ha).1 h.1.1.1.1
  induction ws generalizing ts with
  | nil => simp
  | cons w ws ih =>
    obtain ⟨x', y', hd⟩ := hw w (by simp)
    cases ts with
    | nil => simp only [List.flatten_nil, List.flatten_cons] at he; exact absurd he.symm (pos' hd _)
    | cons t ts =>
      obtain ⟨a, b, rfl⟩ := ht t (by simp)
      simp only [List.flatten_cons] at he
      obtain ⟨rfl, rfl, hr⟩ := dpi_read hd he
      rintro x y ⟨u, hu, hux⟩
      rcases List.mem_cons.mp hu with rfl | hu
      · rw [hr] at he
        have := dpi_read (t := []) (t' := []) (x := x') (y := y') hux (by rw [List.append_cancel_right he])
        rw [this.1, this.2.1]; simp
      · exact List.mem_cons_of_mem _ (ih ts (fun t h => ht t (by simp [h])) (fun w h => hw w (by simp [h])) hr.symm x y ⟨u, hu, hux⟩)

/-- C82 for resolutions, what holds of the code: nothing separates the resolutions in the hint, but when the text is taken apart into
resolutions, these are exactly the accepted ones in dots per inch. -/
theorem C82_resolutions_partial (pa : Attrs) (l : List Value) (x y : UInt32) (hl : sResolution.choices pa = .ok l)
    (hne : ∃ a b, .res a b 3 ∈ l) :
    (∃ ws : List Bytes, resolutionList l = ws.flatten ∧ ∀ w ∈ ws, ∃ a b, Spec.Dpi w a b) ∧
    ∀ ws : List Bytes, resolutionList l = ws.flatten → (∀ w ∈ ws, ∃ a b, Spec.Dpi w a b) →
      (sResolution.choiceSupports pa (.res x y 3) = .ok true ↔ ∃ w ∈ ws, Spec.Dpi w x y) := by
  have hsup : sResolution.choiceSupports pa (.res x y 3) = .ok (decide (.res x y 3 ∈ l)) := by
    unfold Setting.choiceSupports; rw [hl]; rfl
  have hlist : resolutionList l = (dpiTexts l).flatten := by
    unfold resolutionList
    rw [showResolutions_eq, if_neg]
    obtain ⟨a, b, hab⟩ := hne
    intro h
    rw [List.flatten_eq_nil_iff] at h
    have := h _ ((dpiTexts_mem l _).mpr ⟨a, b, hab, rfl⟩)
    simp only [showRes, List.append_eq_nil_iff] at this
    exact dec_ne_nil _ this.1.1.1
  have hts : ∀ t ∈ dpiTexts l, ∃ x y, t = showRes x y 3 := fun t ht => by
    obtain ⟨a, b, _, rfl⟩ := (dpiTexts_mem l t).mp ht; exact ⟨a, b, rfl⟩
  refine ⟨⟨_, hlist, fun w hw => by obtain ⟨a, b, rfl⟩ := hts w hw; exact ⟨a, b, dpi_show a b⟩⟩, fun ws he hw => ?_⟩
  rw [hlist] at he
  rw [hsup, Outcome.ok.injEq, decide_eq_true_eq]
  have back : ∀ x y, .res x y 3 ∈ l ↔ showRes x y 3 ∈ dpiTexts l := by
    intro x y
    rw [dpiTexts_mem]
    constructor
    · exact fun h => ⟨x, y, h, rfl⟩
    · rintro ⟨a, b, h, he⟩
      obtain ⟨rfl, rfl⟩ := showRes_inj he
      exact h
  rw [back]
  constructor
  · intro h
    clear hlist hsup hl hne back
    generalize dpiTexts l = ts at h he hts
    induction ts generalizing ws with
    | nil => cases h
    | cons t ts ih =>
      obtain ⟨a, b, rfl⟩ := hts t (by simp)
      cases ws with
      | nil =>
        simp only [List.flatten_nil, List.flatten_cons, List.append_eq_nil_iff, showRes] at he
        exact absurd he.1.1.1.1 (dec_ne_nil _)
      | cons w ws =>
        obtain ⟨x', y', hd⟩ := hw w (by simp)
        simp only [List.flatten_cons] at he
        obtain ⟨rfl, rfl, hr⟩ := dpi_read hd he
        rcases List.mem_cons.mp h with h | h
        · obtain ⟨rfl, rfl⟩ := showRes_inj h
          exact ⟨w, by simp, hd⟩
        · obtain ⟨u, hu, hx⟩ := ih ws (fun w h => hw w (by simp [h])) h hr.symm (fun t h => hts t (by simp [h]))
          exact ⟨u, by simp [hu], hx⟩
  · exact flatten_read _ ws hts hw he x y

/-- A printer with two resolutions. -/
def twoResolutions : Attrs := [(ascii "printer-resolution-supported", 0x32, .set [.res 300 300 3, .res 600 600 3])]

/-- C82 for resolutions is false of the code: `first` in `resolution_list` stays true, so that two resolutions are listed without the
comma between them. -/
theorem C82_resolutions_false : ∃ (pa : Attrs) (l : List Value), sResolution.choices pa = .ok l ∧ .res 300 300 3 ∈ l ∧ .res 600 600 3 ∈ l ∧
    resolutionList l = ascii "300x300dpi600x600dpi" ∧ (44 : UInt8) ∉ resolutionList l :=
  ⟨twoResolutions, [.res 300 300 3, .res 600 600 3], by decide +kernel, by decide +kernel, by decide +kernel, by decide +kernel, by decide +kernel⟩

/-! ## Refusals -/

/-- C82: ippclient stops with a message exactly when the setting is refused. -/
theorem C82_message (s : Setting) (supports : Attrs → Value → Outcome Bool) (set : Value → PrintJob → Outcome PrintJob) (docName hint : Bytes)
    (given : Option Value) (force : Bool) (j : PrintJob) :
    setOrFail supports set given force j = .ok none ↔ ∃ m, failure s supports docName hint given force j.printerAttrs = .ok (some m) := by
  unfold setOrFail failure
  cases given with
  | none => simp
  | some v =>
    dsimp only
    cases hs : supports j.printerAttrs v with
    | ok b =>
      simp only [Outcome.bind_ok]
      by_cases hb : (b || force) = true
      · rw [if_pos hb, if_pos hb]
        simp only [Outcome.pure_eq, Outcome.ok.injEq, reduceCtorEq, exists_false, iff_false]
        intro h
        obtain ⟨j', _, h⟩ := Outcome.bind_eq_ok.mp h
        simp at h
      · rw [if_neg hb, if_neg hb]; simp
    | throws e => simp [Outcome.bind, bind]
    | ub => simp [Outcome.bind, bind]
    | hang => simp [Outcome.bind, bind]

/-- C82: a refusal can be mended by following what it says. Either it says that the printer lacks the setting, and then no value is accepted; or
it lists valid values, the given one is none of them, and each of them is accepted. -/
theorem C82_advice (s : Setting) (docName v m : Bytes) (pa : Attrs) (hs : s.ty = .str) (ht : Spec.Texts pa (s.name ++ ascii "-supported"))
    (hempty : ∀ tag, KMap.get? pa (s.name ++ ascii "-supported") ≠ some (tag, .set []))
    (hf : failureOf s s.choiceSupports (supportedStr s pa) docName (some (.str v)) false pa = .ok (some m)) :
    (m = ascii "Argument " ++ docName ++ ascii " (ipp: " ++ s.name ++ ascii ")" ++ ascii " is not supported by this printer.\n" ∧
      ∀ w, s.choiceSupports pa (.str w) = .ok false) ∨
    ∃ H, m = ascii "Argument " ++ docName ++ ascii " (ipp: " ++ s.name ++ ascii ")" ++ ascii " has an invalid value. \nValid values are: " ++ H ++ ascii "\n" ∧
      v ∉ Spec.words H ∧ ∀ w ∈ Spec.words H, failureOf s s.choiceSupports (supportedStr s pa) docName (some (.str w)) false pa = .ok none := by
  unfold failureOf failure at hf
  obtain ⟨b, hb, hf⟩ := Outcome.bind_eq_ok.mp hf
  simp only [Outcome.pure_eq, Outcome.ok.injEq, Bool.or_false] at hf
  cases b with
  | true => simp at hf
  | false =>
    simp only [Bool.false_eq_true, if_false, Option.some.injEq] at hf
    subst hf
    unfold complaint
    cases hg : KMap.get? pa (s.name ++ ascii "-supported") with
    | none =>
      left
      have hi : s.isSupported pa = false := by unfold Setting.isSupported KMap.has; rw [hg]; rfl
      rw [if_pos hi]
      constructor
      · rw [show ascii " is not supported by this printer.\n" = ascii " " ++ ascii "is not supported by this printer.\n" from by decide +kernel]
        simp only [List.append_assoc]
      · intro w
        unfold Setting.choiceSupports Setting.choices Attrs.getList
        rw [hg]; simp
    | some a =>
      right
      have hi : ¬ s.isSupported pa = false := by unfold Setting.isSupported KMap.has; rw [hg]; simp
      rw [if_neg hi]
      have hne : ∃ v, Spec.Declared pa (s.name ++ ascii "-supported") v := by
        obtain ⟨tag, x⟩ := a
        have hx : ∃ v, v ∈ asList x := by
          cases x with
          | set l =>
            cases l with
            | nil => exact absurd hg (hempty tag)
            | cons v l => exact ⟨v, by simp [asList]⟩
          | _ => exact ⟨_, List.mem_singleton.mpr rfl⟩
        obtain ⟨v, hv⟩ := hx
        exact ⟨v, (declared_asList hg v).mpr hv⟩
      refine ⟨supportedStr s pa, ?_, ?_, fun w hw => ?_⟩
      · rw [show ascii " has an invalid value. \nValid values are: " = ascii " " ++ (ascii "has an invalid value. \n" ++ ascii "Valid values are: ") from by decide +kernel]
        simp only [List.append_assoc]
      · intro hv
        rw [(C82_texts s pa v hs ht hne).mpr hv] at hb
        cases hb
      · unfold failureOf failure
        simp only [(C82_texts s pa w hs ht hne).mpr hw, Outcome.bind_ok, Bool.true_or, if_true, Outcome.pure_eq]

/-- A printer with choices of several kinds. -/
def choosy : Attrs :=
  [(ascii "copies-supported", (0x33, .range 1 99)), (ascii "finishings-supported", (0x23, .set [.int 3, .int (-4)])),
   (ascii "media-ready", (0x44, .str (ascii "iso_a4"))), (ascii "media-supported", (0x44, .set [.str (ascii "iso_a5"), .str (ascii "iso_a4")])),
   (ascii "print-quality-supported", (0x23, .set [.int 3, .int 5])), (ascii "sides-supported", (0x44, .set [.str (ascii "one-sided"), .str (ascii "two-sided")]))]

theorem choosy_sides (v : Value) : Spec.Declared choosy (sSides.name ++ ascii "-supported") v ↔ v = .str (ascii "one-sided") ∨ v = .str (ascii "two-sided") := by
  rw [declared_asList (a := (0x44, .set [.str (ascii "one-sided"), .str (ascii "two-sided")])) (by decide +kernel)]
  simp [asList]

theorem choosy_media (v : Value) : Spec.Declared choosy (sMedia.name ++ ascii "-supported") v ↔ v = .str (ascii "iso_a5") ∨ v = .str (ascii "iso_a4") := by
  rw [declared_asList (a := (0x44, .set [.str (ascii "iso_a5"), .str (ascii "iso_a4")])) (by decide +kernel)]
  simp [asList]

theorem choosy_finishings (v : Value) : Spec.Declared choosy (sFinishings.name ++ ascii "-supported") v ↔ v = .int 3 ∨ v = .int (-4) := by
  rw [declared_asList (a := (0x23, .set [.int 3, .int (-4)])) (by decide +kernel)]
  simp [asList]

/-- `C82_texts`, `C82_advice` -/
example : sSides.ty = .str ∧ Spec.Texts choosy (sSides.name ++ ascii "-supported") ∧ (∃ v, Spec.Declared choosy (sSides.name ++ ascii "-supported") v) ∧
    (∀ tag, KMap.get? choosy (sSides.name ++ ascii "-supported") ≠ some (tag, .set [])) ∧
    failureOf sSides sSides.choiceSupports (supportedStr sSides choosy) (ascii "--sides") (some (.str (ascii "three-sided"))) false choosy =
      .ok (some (ascii "Argument --sides (ipp: sides) has an invalid value. \nValid values are: one-sided, two-sided\n")) := by
  refine ⟨rfl, ?_, ⟨_, (choosy_sides _).mpr (.inl rfl)⟩, ?_, by decide +kernel⟩
  · intro v hv
    rcases (choosy_sides v).mp hv with rfl | rfl
    · exact ⟨_, rfl, by decide +kernel⟩
    · exact ⟨_, rfl, by decide +kernel⟩
  · intro tag h
    rw [show KMap.get? choosy (sSides.name ++ ascii "-supported") = some (0x44, .set [.str (ascii "one-sided"), .str (ascii "two-sided")]) from by decide +kernel] at h
    simp at h

/-- `C82_numbers` -/
example : sFinishings.ty = .int ∧ Spec.Numbers choosy (sFinishings.name ++ ascii "-supported") ∧
    (∃ v, Spec.Declared choosy (sFinishings.name ++ ascii "-supported") v) ∧ supportedStr sFinishings choosy = ascii "3, -4" := by
  refine ⟨rfl, ?_, ⟨_, (choosy_finishings _).mpr (.inl rfl)⟩, by decide +kernel⟩
  intro v hv
  rcases (choosy_finishings v).mp hv with rfl | rfl <;> exact ⟨_, rfl⟩

/-- `C82_media` -/
example : sMedia.ty = .str ∧ (44 : UInt8) ∉ ascii "ready" ∧ Spec.Texts choosy (sMedia.name ++ ascii "-supported") ∧
    (∀ u, ¬ Spec.Declared choosy (sMedia.name ++ ascii "-supported") (.str (u ++ (ascii "(" ++ ascii "ready" ++ ascii ")")))) ∧
    (∃ v, Spec.Declared choosy (sMedia.name ++ ascii "-supported") v) ∧ preferredStr sMedia (ascii "ready") choosy = ascii "iso_a5, iso_a4(ready)" := by
  refine ⟨rfl, by decide +kernel, ?_, ?_, ⟨_, (choosy_media _).mpr (.inl rfl)⟩, by decide +kernel⟩
  · intro v hv
    rcases (choosy_media v).mp hv with rfl | rfl
    · exact ⟨_, rfl, by decide +kernel⟩
    · exact ⟨_, rfl, by decide +kernel⟩
  · intro u hu
    have h : ∀ a : Bytes, u ++ (ascii "(" ++ ascii "ready" ++ ascii ")") = a → a.length = 6 → False := by
      intro a h hl
      rw [← h] at hl
      simp only [List.length_append, show (ascii "(").length = 1 from by decide +kernel, show (ascii "ready").length = 5 from by decide +kernel,
        show (ascii ")").length = 1 from by decide +kernel] at hl
      omega
    rcases (choosy_media _).mp hu with he | he
    · exact h _ (Value.str.inj he) (by decide +kernel)
    · exact h _ (Value.str.inj he) (by decide +kernel)

/-- `C82_range`, `C82_quality` -/
example : KMap.get? choosy (sCopies.name ++ ascii "-supported") = some (0x33, .range 1 99) ∧ supportedStr sCopies choosy = ascii "1-99" ∧
    qualityHint choosy = .ok (ascii "draft, high") ∧ Spec.Declared choosy (ascii "print-quality-supported") (.int 5) := by
  refine ⟨by decide +kernel, by decide +kernel, by decide +kernel, ?_⟩
  rw [declared_asList (a := (0x23, .set [.int 3, .int 5])) (by decide +kernel)]
  simp [asList]

end Verif.Client
