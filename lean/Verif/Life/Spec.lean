/-! # Objects of libraries: what it means that they are given back (C125) -/

namespace Verif.Life

/-- Something happens to an object of a library. -/
inductive Ev (O : Type) where
  | made (o : O)
  | used (o : O)
  | freed (o : O)
  deriving DecidableEq, Repr

def Ev.obj {O : Type} : Ev O → O
  | .made o | .used o | .freed o => o

variable {O : Type} [DecidableEq O]

/-- What happens to one object -/
def about (o : O) (tr : List (Ev O)) : List (Ev O) := tr.filter (fun e => decide (e.obj = o))

/-- Each object is made once, then used, and then given back once: it is not used before or after, not given back twice, and not forgotten. -/
def Returned (tr : List (Ev O)) : Prop := ∀ o, about o tr = [] ∨ ∃ k, about o tr = .made o :: (List.replicate k (.used o) ++ [.freed o])

/-! ## A way to show it: going through with the list of objects there are, and of those that there have been -/

def step (s : List O × List O) : Ev O → Option (List O × List O)
  | .made o => if o ∈ s.2 then none else some (o :: s.1, o :: s.2)
  | .used o => if o ∈ s.1 then some s else none
  | .freed o => if o ∈ s.1 then some (s.1.erase o, s.2) else none

def run : List (Ev O) → List O × List O → Option (List O × List O)
  | [], s => some s
  | e :: tr, s => (step s e).bind (run tr)

theorem run_append (tr' : List (Ev O)) : ∀ (tr : List (Ev O)) (s : List O × List O), run (tr ++ tr') s = (run tr s).bind (run tr') := by
  intro tr
  induction tr with
  | nil => intro s; rfl
  | cons e tr ih =>
    intro s
    simp only [List.cons_append, run]
    cases step s e with
    | none => rfl
    | some s' => exact ih s'

/-- The state of one object -/
structure Fits (past : List (Ev O)) (s : List O × List O) : Prop where
  nodup : s.1.Nodup
  sub : ∀ o ∈ s.1, o ∈ s.2
  live : ∀ o ∈ s.1, ∃ k, about o past = .made o :: List.replicate k (.used o)
  gone : ∀ o ∈ s.2, o ∉ s.1 → ∃ k, about o past = .made o :: (List.replicate k (.used o) ++ [.freed o])
  never : ∀ o, o ∉ s.2 → about o past = []

theorem about_snoc (o : O) (past : List (Ev O)) (e : Ev O) : about o (past ++ [e]) = about o past ++ (if e.obj = o then [e] else []) := by
  unfold about
  rw [List.filter_append]
  congr 1
  by_cases h : e.obj = o <;> simp [h]

theorem Fits.step {past : List (Ev O)} {s s' : List O × List O} {e : Ev O} (h : Fits past s) (hs : Life.step s e = some s') : Fits (past ++ [e]) s' := by
  have other : ∀ o, e.obj ≠ o → about o (past ++ [e]) = about o past := fun o ho => by rw [about_snoc, if_neg ho, List.append_nil]
  have own : about e.obj (past ++ [e]) = about e.obj past ++ [e] := by rw [about_snoc, if_pos rfl]
  cases e with
  | made o =>
    simp only [Life.step] at hs
    split at hs
    · cases hs
    · rename_i hn
      cases hs
      refine ⟨List.nodup_cons.mpr ⟨fun hm => hn (h.sub o hm), h.nodup⟩, ?_, ?_, ?_, ?_⟩
      · intro x hx
        rcases List.mem_cons.mp hx with rfl | hx
        · exact List.mem_cons_self
        · exact List.mem_cons_of_mem _ (h.sub x hx)
      · intro x hx
        by_cases hxo : o = x
        · subst hxo; exact ⟨0, by rw [show about o (past ++ [.made o]) = about o past ++ [.made o] from own, h.never o hn]; rfl⟩
        · rw [other x hxo]; exact h.live x ((List.mem_cons.mp hx).resolve_left (Ne.symm hxo))
      · intro x hx hnx
        have hxo : o ≠ x := fun e => hnx (e ▸ List.mem_cons_self)
        rw [other x hxo]
        exact h.gone x ((List.mem_cons.mp hx).resolve_left (Ne.symm hxo)) fun hm => hnx (List.mem_cons_of_mem _ hm)
      · intro x hx
        have hxo : o ≠ x := fun e => hx (e ▸ List.mem_cons_self)
        rw [other x hxo]
        exact h.never x fun hm => hx (List.mem_cons_of_mem _ hm)
  | used o =>
    simp only [Life.step] at hs
    split at hs
    · rename_i hm
      cases hs
      refine ⟨h.nodup, h.sub, ?_, ?_, ?_⟩
      · intro x hx
        by_cases hxo : o = x
        · subst hxo
          obtain ⟨k, hk⟩ := h.live o hx
          refine ⟨k + 1, ?_⟩
          rw [show about o (past ++ [.used o]) = about o past ++ [.used o] from own, hk, List.replicate_succ']
          rfl
        · rw [other x hxo]; exact h.live x hx
      · intro x hx hnx
        rw [other x fun e => hnx (by rw [← e]; exact hm)]; exact h.gone x hx hnx
      · intro x hx
        rw [other x fun e => hx (h.sub x (by rw [← e]; exact hm))]; exact h.never x hx
    · cases hs
  | freed o =>
    simp only [Life.step] at hs
    split at hs
    · rename_i hm
      cases hs
      refine ⟨h.nodup.erase o, fun x hx => h.sub x (List.mem_of_mem_erase hx), ?_, ?_, ?_⟩
      · intro x hx
        have hxo : o ≠ x := by
          rintro rfl
          exact (h.nodup.mem_erase_iff.mp hx).1 rfl
        rw [other x hxo]; exact h.live x (List.mem_of_mem_erase hx)
      · intro x hx hnx
        by_cases hxo : o = x
        · subst hxo
          obtain ⟨k, hk⟩ := h.live o hm
          exact ⟨k, by rw [show about o (past ++ [.freed o]) = about o past ++ [.freed o] from own, hk]; rfl⟩
        · rw [other x hxo]; exact h.gone x hx fun hm' => hnx (h.nodup.mem_erase_iff.mpr ⟨Ne.symm hxo, hm'⟩)
      · intro x hx
        rw [other x fun e => hx (h.sub x (by rw [← e]; exact hm))]; exact h.never x hx
    · cases hs

theorem Fits.run : ∀ (tr : List (Ev O)) {past : List (Ev O)} {s s' : List O × List O}, Fits past s → Life.run tr s = some s' → Fits (past ++ tr) s' := by
  intro tr
  induction tr with
  | nil => intro past s s' h hr; cases hr; rw [List.append_nil]; exact h
  | cons e tr ih =>
    intro past s s' h hr
    simp only [Life.run] at hr
    cases hs : Life.step s e with
    | none => rw [hs] at hr; cases hr
    | some s1 =>
      rw [hs] at hr
      have := ih (h.step hs) hr
      rwa [List.append_assoc] at this

theorem fits_run {tr : List (Ev O)} {s : List O × List O} (h : run tr ([], []) = some s) : Fits tr s :=
  Fits.run (past := []) tr ⟨List.nodup_nil, by simp, by simp, by simp, fun _ _ => rfl⟩ h

/-- When all objects that there have been are gone at the end, they have been given back. -/
theorem returned_of_run {tr : List (Ev O)} {ever : List O} (h : run tr ([], []) = some ([], ever)) : Returned tr := by
  have f := fits_run h
  intro o
  by_cases ho : o ∈ ever
  · exact .inr (f.gone o ho (by simp))
  · exact .inl (f.never o ho)

end Verif.Life
