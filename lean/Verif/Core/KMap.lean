import Verif.Core.Bytes

/-!
# `std::map<std::string, T>` as a sorted association list

The iteration order of the map is the order of the list.
-/

namespace Verif

/-- `operator<` of `std::string`: lexicographic, characters compared as unsigned bytes. -/
def bytesLt : Bytes → Bytes → Bool
  | _, [] => false
  | [], _ :: _ => true
  | a :: x, b :: y => decide (a < b) || (a == b && bytesLt x y)

theorem bytesLt_irrefl (a : Bytes) : bytesLt a a = false := by
  induction a with
  | nil => rfl
  | cons x a ih => simp [bytesLt, ih]

theorem bytesLt_trans {a b c : Bytes} (h1 : bytesLt a b = true) (h2 : bytesLt b c = true) : bytesLt a c = true := by
  induction a generalizing b c with
  | nil =>
    cases c with
    | nil => cases b <;> simp [bytesLt] at h2
    | cons z c => rfl
  | cons x a ih =>
    cases b with
    | nil => simp [bytesLt] at h1
    | cons y b =>
      cases c with
      | nil => simp [bytesLt] at h2
      | cons z c =>
        simp only [bytesLt, Bool.or_eq_true, decide_eq_true_eq, Bool.and_eq_true, beq_iff_eq] at h1 h2 ⊢
        rcases h1 with h1 | ⟨rfl, h1⟩
        · rcases h2 with h2 | ⟨rfl, h2⟩
          · left; exact UInt8.lt_trans h1 h2
          · left; exact h1
        · rcases h2 with h2 | ⟨rfl, h2⟩
          · left; exact h2
          · right; exact ⟨rfl, ih h1 h2⟩

theorem bytesLt_total (a b : Bytes) : bytesLt a b = true ∨ a = b ∨ bytesLt b a = true := by
  induction a generalizing b with
  | nil => cases b <;> simp [bytesLt]
  | cons x a ih =>
    cases b with
    | nil => simp [bytesLt]
    | cons y b =>
      simp only [bytesLt, Bool.or_eq_true, decide_eq_true_eq, Bool.and_eq_true, beq_iff_eq, List.cons.injEq]
      rcases Nat.lt_trichotomy x.toNat y.toNat with h | h | h
      · exact .inl (.inl h)
      · have : x = y := UInt8.toNat_inj.mp h
        subst this
        rcases ih b with h | h | h
        · exact .inl (.inr ⟨rfl, h⟩)
        · exact .inr (.inl ⟨rfl, h⟩)
        · exact .inr (.inr (.inr ⟨rfl, h⟩))
      · exact .inr (.inr (.inl h))

theorem bytesLt_ne {a b : Bytes} (h : bytesLt a b = true) : a ≠ b := by
  rintro rfl; rw [bytesLt_irrefl] at h; cases h

/-- A map, as the list of its entries in iteration order. -/
abbrev KMap (α : Type) := List (Bytes × α)

namespace KMap

variable {α : Type}

/-- `find` / `at`. -/
def get? : KMap α → Bytes → Option α
  | [], _ => none
  | (k', v) :: r, k => if k = k' then some v else get? r k

/-- `find(k) != end()` -/
def has (m : KMap α) (k : Bytes) : Bool := (get? m k).isSome

/-- `insert({k, v})`: leaves an existing entry. -/
def insertNew : KMap α → Bytes → α → KMap α
  | [], k, v => [(k, v)]
  | (k', v') :: r, k, v =>
    if bytesLt k k' then (k, v) :: (k', v') :: r
    else if k = k' then (k', v') :: r
    else (k', v') :: insertNew r k v

/-- `insert_or_assign(k, v)`, `m[k] = v`. -/
def assign : KMap α → Bytes → α → KMap α
  | [], k, v => [(k, v)]
  | (k', v') :: r, k, v =>
    if bytesLt k k' then (k, v) :: (k', v') :: r
    else if k = k' then (k, v) :: r
    else (k', v') :: assign r k v

/-- `erase(k)`. -/
def erase (m : KMap α) (k : Bytes) : KMap α := m.filter (fun e => decide (e.1 ≠ k))

/-- The keys are strictly ascending. -/
def Sorted (m : KMap α) : Prop := m.Pairwise (fun a b => bytesLt a.1 b.1 = true)

theorem sorted_nil : Sorted ([] : KMap α) := List.Pairwise.nil

theorem Sorted.tail {e : Bytes × α} {m : KMap α} (h : Sorted (e :: m)) : Sorted m := (List.pairwise_cons.mp h).2

theorem get?_none_of_lt {m : KMap α} {k : Bytes} (h : ∀ e ∈ m, bytesLt k e.1 = true) : get? m k = none := by
  induction m with
  | nil => rfl
  | cons e m ih =>
    obtain ⟨k', v⟩ := e
    have h1 := h (k', v) (by simp)
    rw [get?, if_neg (bytesLt_ne h1), ih (fun e he => h e (by simp [he]))]

theorem mem_of_get? {m : KMap α} {k : Bytes} {v : α} (h : get? m k = some v) : (k, v) ∈ m := by
  induction m with
  | nil => cases h
  | cons e m ih =>
    obtain ⟨k', v'⟩ := e
    rw [get?] at h
    split at h
    · cases h; rename_i hk; subst hk; simp
    · simp [ih h]

theorem get?_of_mem {m : KMap α} (hs : Sorted m) {k : Bytes} {v : α} (h : (k, v) ∈ m) : get? m k = some v := by
  induction m with
  | nil => cases h
  | cons e m ih =>
    obtain ⟨k', v'⟩ := e
    rw [get?]
    rcases List.mem_cons.mp h with h | h
    · cases h; simp
    · have := (List.pairwise_cons.mp hs).1 _ h
      rw [if_neg (fun e => bytesLt_ne this e.symm), ih hs.tail h]

theorem mem_insertNew {m : KMap α} {k : Bytes} {v : α} {e : Bytes × α} (h : e ∈ insertNew m k v) :
    e = (k, v) ∨ e ∈ m := by
  induction m with
  | nil => simpa [insertNew] using h
  | cons e' m ih =>
    obtain ⟨k', v'⟩ := e'
    rw [insertNew] at h
    split at h
    · simpa using h
    · split at h
      · exact .inr h
      · rcases List.mem_cons.mp h with rfl | h
        · simp
        · rcases ih h with h | h
          · exact .inl h
          · simp [h]

theorem mem_assign {m : KMap α} {k : Bytes} {v : α} {e : Bytes × α} (h : e ∈ assign m k v) :
    e = (k, v) ∨ e ∈ m := by
  induction m with
  | nil => simpa [assign] using h
  | cons e' m ih =>
    obtain ⟨k', v'⟩ := e'
    rw [assign] at h
    split at h
    · simpa using h
    · split at h
      · rcases List.mem_cons.mp h with h | h
        · exact .inl h
        · simp [h]
      · rcases List.mem_cons.mp h with rfl | h
        · simp
        · rcases ih h with h | h
          · exact .inl h
          · simp [h]

theorem sorted_insertNew {m : KMap α} (hs : Sorted m) (k : Bytes) (v : α) : Sorted (insertNew m k v) := by
  induction m with
  | nil => simp [insertNew, Sorted]
  | cons e m ih =>
    obtain ⟨k', v'⟩ := e
    have h1 := (List.pairwise_cons.mp hs).1
    rw [insertNew]
    split
    · rename_i hlt
      refine List.pairwise_cons.mpr ⟨fun e he => ?_, hs⟩
      rcases List.mem_cons.mp he with rfl | he
      · exact hlt
      · exact bytesLt_trans hlt (h1 e he)
    · split
      · exact hs
      · rename_i hn hne
        refine List.pairwise_cons.mpr ⟨fun e he => ?_, ih hs.tail⟩
        rcases mem_insertNew he with rfl | he
        · rcases bytesLt_total k k' with h | h | h
          · exact absurd h hn
          · exact absurd h hne
          · exact h
        · exact h1 e he

theorem sorted_assign {m : KMap α} (hs : Sorted m) (k : Bytes) (v : α) : Sorted (assign m k v) := by
  induction m with
  | nil => simp [assign, Sorted]
  | cons e m ih =>
    obtain ⟨k', v'⟩ := e
    have h1 := (List.pairwise_cons.mp hs).1
    rw [assign]
    split
    · rename_i hlt
      refine List.pairwise_cons.mpr ⟨fun e he => ?_, hs⟩
      rcases List.mem_cons.mp he with rfl | he
      · exact hlt
      · exact bytesLt_trans hlt (h1 e he)
    · split
      · rename_i heq
        subst heq
        exact List.pairwise_cons.mpr ⟨h1, hs.tail⟩
      · rename_i hn hne
        refine List.pairwise_cons.mpr ⟨fun e he => ?_, ih hs.tail⟩
        rcases mem_assign he with rfl | he
        · rcases bytesLt_total k k' with h | h | h
          · exact absurd h hn
          · exact absurd h hne
          · exact h
        · exact h1 e he

theorem sorted_erase {m : KMap α} (hs : Sorted m) (k : Bytes) : Sorted (erase m k) :=
  List.Pairwise.sublist List.filter_sublist hs

theorem get?_insertNew {m : KMap α} (hs : Sorted m) (k k' : Bytes) (v : α) :
    get? (insertNew m k v) k' = if k' = k then some ((get? m k).getD v) else get? m k' := by
  induction m with
  | nil => simp [insertNew, get?]
  | cons e m ih =>
    obtain ⟨k0, v0⟩ := e
    have h1 := (List.pairwise_cons.mp hs).1
    rw [insertNew]
    split
    · rename_i hlt
      have hn : get? ((k0, v0) :: m) k = none := by
        apply get?_none_of_lt
        intro e he
        rcases List.mem_cons.mp he with rfl | he
        · exact hlt
        · exact bytesLt_trans hlt (h1 e he)
      rw [hn]; simp only [get?, Option.getD_none]
    · split
      · rename_i heq
        subst heq
        by_cases hk : k' = k
        · simp [get?, hk]
        · simp [hk]
      · rename_i hne
        rw [get?, ih hs.tail]
        by_cases hk : k' = k
        · subst hk; simp [get?, hne]
        · simp [hk, get?]

theorem get?_assign_any (m : KMap α) (k k' : Bytes) (v : α) :
    get? (assign m k v) k' = if k' = k then some v else get? m k' := by
  induction m with
  | nil => simp [assign, get?]
  | cons e m ih =>
    obtain ⟨k0, v0⟩ := e
    rw [assign]
    split
    · simp only [get?]
    · split
      · rename_i heq
        subst heq
        simp only [get?]
        by_cases hk : k' = k <;> simp [hk]
      · rename_i hne
        rw [get?, ih]
        by_cases hk : k' = k
        · subst hk; simp [hne]
        · simp [hk, get?]

theorem get?_assign {m : KMap α} (_ : Sorted m) (k k' : Bytes) (v : α) :
    get? (assign m k v) k' = if k' = k then some v else get? m k' := get?_assign_any m k k' v

theorem get?_erase (m : KMap α) (k k' : Bytes) :
    get? (erase m k) k' = if k' = k then none else get? m k' := by
  induction m with
  | nil => simp [erase, get?]
  | cons e m ih =>
    obtain ⟨k0, v0⟩ := e
    have ih' : get? (List.filter (fun e => decide (e.1 ≠ k)) m) k' = if k' = k then none else get? m k' := ih
    rw [erase, List.filter_cons]
    by_cases h0 : k0 = k
    · rw [if_neg (by simp [h0]), ih']
      by_cases hk : k' = k
      · simp [hk]
      · simp only [hk, if_false, get?]; rw [if_neg (by rw [h0]; exact hk)]
    · rw [if_pos (by simp [h0]), get?, ih', get?]
      by_cases hk : k' = k
      · subst hk; simp [Ne.symm h0]
      · simp [hk]

/-- Sorted maps with the same entries are equal. -/
theorem ext_mem {m m' : KMap α} (h1 : Sorted m) (h2 : Sorted m') (h : ∀ e, e ∈ m ↔ e ∈ m') : m = m' := by
  induction m generalizing m' with
  | nil =>
    cases m' with
    | nil => rfl
    | cons e m' => exact absurd ((h e).mpr (by simp)) (by simp)
  | cons e m ih =>
    cases m' with
    | nil => exact absurd ((h e).mp (by simp)) (by simp)
    | cons e' m' =>
      have p1 := (List.pairwise_cons.mp h1).1
      have p2 := (List.pairwise_cons.mp h2).1
      have he : e = e' := by
        rcases List.mem_cons.mp ((h e).mp (by simp)) with he | he
        · exact he
        · rcases List.mem_cons.mp ((h e').mpr (by simp)) with he' | he'
          · exact he'.symm
          · have := bytesLt_trans (p1 e' he') (p2 e he)
            rw [bytesLt_irrefl] at this; cases this
      subst he
      congr 1
      refine ih h1.tail h2.tail (fun x => ?_)
      have hx := h x
      simp only [List.mem_cons] at hx
      constructor
      · intro hm
        rcases hx.mp (.inr hm) with rfl | h'
        · have := p1 x hm; rw [bytesLt_irrefl] at this; cases this
        · exact h'
      · intro hm
        rcases hx.mpr (.inr hm) with rfl | h'
        · have := p2 x hm; rw [bytesLt_irrefl] at this; cases this
        · exact h'

/-- Sorted maps that agree on all keys are equal. -/
theorem ext {m m' : KMap α} (h1 : Sorted m) (h2 : Sorted m') (h : ∀ k, get? m k = get? m' k) : m = m' := by
  apply ext_mem h1 h2
  rintro ⟨k, v⟩
  constructor
  · intro hm; exact mem_of_get? ((h k).symm.trans (get?_of_mem h1 hm))
  · intro hm; exact mem_of_get? ((h k).trans (get?_of_mem h2 hm))

/-- Inserting entries one after the other. -/
def insertAll (m : KMap α) (l : List (Bytes × α)) : KMap α := l.foldl (fun m e => insertNew m e.1 e.2) m

theorem sorted_insertAll {m : KMap α} (hs : Sorted m) (l : List (Bytes × α)) : Sorted (insertAll m l) := by
  induction l generalizing m with
  | nil => exact hs
  | cons e l ih => exact ih (sorted_insertNew hs _ _)

/-- First come, first served. -/
theorem get?_insertAll {m : KMap α} (hs : Sorted m) (l : List (Bytes × α)) (k : Bytes) :
    get? (insertAll m l) k = (get? m k).or (get? l k) := by
  induction l generalizing m with
  | nil => simp [insertAll, get?]
  | cons e l ih =>
    obtain ⟨k0, v0⟩ := e
    have : insertAll m ((k0, v0) :: l) = insertAll (insertNew m k0 v0) l := rfl
    rw [this, ih (sorted_insertNew hs _ _), get?_insertNew hs, get?]
    by_cases hk : k = k0
    · subst hk
      cases get? m k <;> simp
    · simp [hk]

/-- Inserting the entries of a map into the empty map gives the map. -/
theorem insertAll_nil {m : KMap α} (hs : Sorted m) : insertAll [] m = m := by
  apply ext (sorted_insertAll sorted_nil m) hs
  intro k
  rw [get?_insertAll sorted_nil]
  simp [get?]

end KMap
end Verif
