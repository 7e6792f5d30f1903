import Verif.Params.Pages
import Verif.Params.Spec

/-! # Lemmas on page sequences -/

namespace Verif

theorem mem_pagesFromTo (p last x : Nat) : x ∈ pagesFromTo p last ↔ p ≤ x ∧ x ≤ last := by
  fun_induction pagesFromTo p last with
  | case1 p h ih => simp only [List.mem_cons, ih]; omega
  | case2 p h => simp; omega

theorem pairwise_pagesFromTo (p last : Nat) : (pagesFromTo p last).Pairwise (· < ·) := by
  fun_induction pagesFromTo p last with
  | case1 p h ih =>
    refine List.pairwise_cons.mpr ⟨fun x hx => ?_, ih⟩
    have := (mem_pagesFromTo _ _ _).mp hx; omega
  | case2 p h => simp

theorem selectedPages_eq (rs : List (Nat × Nat)) (n : Nat) :
    selectedPages rs n = rs.flatMap (fun r => pagesFromTo r.1 (min r.2 n)) := by
  have : ∀ acc, rs.foldl (fun seq r => seq ++ pagesFromTo r.1 (min r.2 n)) acc =
      acc ++ rs.flatMap (fun r => pagesFromTo r.1 (min r.2 n)) := by
    induction rs with
    | nil => simp
    | cons r rs ih => intro acc; simp [ih]
  simpa [selectedPages] using this []

theorem mem_selectedPages (rs : List (Nat × Nat)) (n x : Nat) :
    x ∈ selectedPages rs n ↔ ∃ r ∈ rs, r.1 ≤ x ∧ x ≤ r.2 ∧ x ≤ n := by
  rw [selectedPages_eq, List.mem_flatMap]
  constructor
  · rintro ⟨r, hr, h⟩
    have := (mem_pagesFromTo _ _ _).mp h
    exact ⟨r, hr, by omega, by omega, by omega⟩
  · rintro ⟨r, hr, h1, h2, h3⟩
    exact ⟨r, hr, (mem_pagesFromTo _ _ _).mpr (by omega)⟩

theorem pairwise_selectedPages (rs : List (Nat × Nat)) (n : Nat) (h : rs.Pairwise (fun x y => x.2 < y.1)) :
    (selectedPages rs n).Pairwise (· < ·) := by
  rw [selectedPages_eq]
  induction rs with
  | nil => simp
  | cons r rs ih =>
    rw [List.pairwise_cons] at h
    rw [List.flatMap_cons, List.pairwise_append]
    refine ⟨pairwise_pagesFromTo _ _, ih h.2, ?_⟩
    intro a ha b hb
    have h1 := (mem_pagesFromTo _ _ _).mp ha
    rw [← selectedPages_eq, mem_selectedPages] at hb
    obtain ⟨r', hr', h2, _⟩ := hb
    have := h.1 r' hr'
    omega

theorem pushTimes_eq (k : Nat) (l copy : List Nat) : pushTimes k l copy = copy ++ (List.replicate k l).flatten := by
  induction k generalizing copy with
  | zero => simp [pushTimes]
  | succ k ih => simp [pushTimes, ih, List.replicate_succ]

theorem flatten_replicate_length (k : Nat) (l : List Nat) : ((List.replicate k l).flatten).length = k * l.length := by
  simp [List.length_flatten]

theorem runs_get (k : Nat) (l : List Nat) (i : Nat) (h : i < k * l.length) :
    ((List.replicate k l).flatten)[i]? = l[i % l.length]? := by
  induction k generalizing i with
  | zero => omega
  | succ k ih =>
    rw [List.replicate_succ, List.flatten_cons]
    by_cases hi : i < l.length
    · rw [List.getElem?_append_left hi, Nat.mod_eq_of_lt hi]
    · rw [List.getElem?_append_right (by omega), ih _ (by rw [Nat.succ_mul] at h; omega)]
      rw [← Nat.mod_eq_sub_mod (by omega)]

/-- The uncollated pages as a list. -/
theorem uncollatedPages_eq (k : Nat) (copy l : List Nat) :
    uncollatedPages k copy l = copy ++ l.flatMap (fun x => List.replicate k x) := by
  induction l generalizing copy with
  | nil => simp [uncollatedPages]
  | cons x l ih =>
    rw [uncollatedPages, ih, pushTimes_eq]
    have : (List.replicate k [x]).flatten = List.replicate k x := by
      induction k with
      | zero => rfl
      | succ k ih => simp [List.replicate_succ]
    simp [this]

theorem pages_length (k : Nat) (l : List Nat) : (l.flatMap (fun x => List.replicate k x)).length = k * l.length := by
  induction l with
  | nil => simp
  | cons x l ih =>
    rw [List.flatMap_cons, List.length_append, ih, List.length_replicate, List.length_cons, Nat.mul_succ]; omega

theorem pages_get (k : Nat) (l : List Nat) (i : Nat) (h : i < k * l.length) :
    (l.flatMap (fun x => List.replicate k x))[i]? = l[i / k]? := by
  induction l generalizing i with
  | nil => simp at h
  | cons x l ih =>
    rw [List.flatMap_cons]
    have hk : 0 < k := by
      rcases Nat.eq_zero_or_pos k with rfl | h'
      · simp at h
      · exact h'
    by_cases hi : i < k
    · rw [List.getElem?_append_left (by simpa using hi), Nat.div_eq_of_lt hi]
      simp [hi]
    · have e : i / k = (i - k) / k + 1 := by
        rw [← Nat.add_div_right _ hk]; congr 1; omega
      rw [List.getElem?_append_right (by simpa using hi), e]
      simp only [List.length_replicate, List.getElem?_cons_succ]
      apply ih
      rw [List.length_cons, Nat.mul_succ] at h; omega

/-- The sheets of a list of pages. -/
def sheets : List Nat → List (Nat × Nat)
  | a :: b :: r => (a, b) :: sheets r
  | _ => []

theorem uncollatedSheets_eq (k : Nat) (copy l : List Nat) (h : l.length % 2 = 0) :
    uncollatedSheets k copy l = .ok (copy ++ (sheets l).flatMap (fun s => (List.replicate k [s.1, s.2]).flatten)) := by
  fun_induction sheets l generalizing copy with
  | case1 a b r ih =>
    rw [uncollatedSheets, ih, pushTimes_eq]
    · simp
    · simp at h; omega
  | case2 l hl =>
    match l with
    | [] => simp [uncollatedSheets]
    | [a] => simp at h
    | a :: b :: r => exact absurd rfl (hl a b r)

theorem sheets_length (l : List Nat) (h : l.length % 2 = 0) : l.length = 2 * (sheets l).length := by
  fun_induction sheets l with
  | case1 a b r ih => simp at h ih ⊢; have := ih (by omega); omega
  | case2 l hl =>
    match l with
    | [] => rfl
    | [a] => simp at h
    | a :: b :: r => exact absurd rfl (hl a b r)

theorem sheets_flat_length (k : Nat) (l : List Nat) (h : l.length % 2 = 0) :
    ((sheets l).flatMap (fun s => (List.replicate k [s.1, s.2]).flatten)).length = k * l.length := by
  fun_induction sheets l with
  | case1 a b r ih =>
    rw [List.flatMap_cons, List.length_append, ih (by simp at h; omega), flatten_replicate_length]
    simp [Nat.mul_add]; omega
  | case2 l hl =>
    match l with
    | [] => simp
    | [a] => simp at h
    | a :: b :: r => exact absurd rfl (hl a b r)

theorem sheets_get (k : Nat) (l : List Nat) (h : l.length % 2 = 0) (j s : Nat) (hs : s < 2)
    (hj : 2 * j + s < k * l.length) :
    ((sheets l).flatMap (fun s => (List.replicate k [s.1, s.2]).flatten))[2 * j + s]? = l[2 * (j / k) + s]? := by
  fun_induction sheets l generalizing j with
  | case1 a b r ih =>
    have hk : 0 < k := by
      rcases Nat.eq_zero_or_pos k with rfl | h'
      · simp at hj
      · exact h'
    rw [List.flatMap_cons]
    by_cases hi : j < k
    · rw [List.getElem?_append_left (by rw [flatten_replicate_length]; simp; omega),
        runs_get _ _ _ (by simp; omega), Nat.div_eq_of_lt hi]
      have : (2 * j + s) % [a, b].length = s := by simp; omega
      simp only [this]
      rcases (by omega : s = 0 ∨ s = 1) with rfl | rfl <;> rfl
    · have e : j / k = (j - k) / k + 1 := by
        rw [← Nat.add_div_right _ hk]; congr 1; omega
      rw [List.getElem?_append_right (by rw [flatten_replicate_length]; simp; omega), e, flatten_replicate_length]
      have e2 : 2 * j + s - k * [a, b].length = 2 * (j - k) + s := by simp; omega
      rw [e2, ih (by simp at h; omega) (j - k)]
      · have : 2 * ((j - k) / k + 1) + s = 2 * ((j - k) / k) + s + 1 + 1 := by omega
        rw [this]; simp
      · simp only [List.length_cons, Nat.mul_add, Nat.mul_one] at hj; omega
  | case2 l hl =>
    match l with
    | [] => simp at hj
    | [a] => simp at h
    | a :: b :: r => exact absurd rfl (hl a b r)

theorem count_runs (k : Nat) (l : List Nat) (q : Nat) : ((List.replicate k l).flatten).count q = k * l.count q := by
  induction k with
  | zero => simp
  | succ k ih => rw [List.replicate_succ, List.flatten_cons, List.count_append, ih, Nat.succ_mul]; omega

theorem count_pages (k : Nat) (l : List Nat) (q : Nat) :
    (l.flatMap (fun x => List.replicate k x)).count q = k * l.count q := by
  induction l with
  | nil => simp
  | cons x l ih =>
    rw [List.flatMap_cons, List.count_append, ih, List.count_cons, List.count_replicate]
    split <;> simp_all [Nat.mul_add]
    omega

theorem count_sheets (k : Nat) (l : List Nat) (h : l.length % 2 = 0) (q : Nat) :
    ((sheets l).flatMap (fun s => (List.replicate k [s.1, s.2]).flatten)).count q = k * l.count q := by
  fun_induction sheets l with
  | case1 a b r ih =>
    rw [List.flatMap_cons, List.count_append, ih (by simp at h; omega), count_runs]
    have : (a :: b :: r).count q = [a, b].count q + r.count q := by
      rw [← List.count_append]; rfl
    rw [this, Nat.mul_add]
  | case2 l hl =>
    match l with
    | [] => simp
    | [a] => simp at h
    | a :: b :: r => exact absurd rfl (hl a b r)

end Verif
