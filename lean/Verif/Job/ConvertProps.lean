import Verif.Job.Convert

/-!
# Property C29: looking up conversions
-/

namespace Verif.Job

/-- A way from an input to a target format: a pipeline, or upload as is. -/
def Convertible (pl : Pipelines) (input target : Bytes) : Prop := (∃ f, ((input, target), f) ∈ pl) ∨ input = target

theorem findFun_isSome (key : Bytes × Bytes) (pl : Pipelines) : (findFun key pl).isSome = true ↔ ∃ f, (key, f) ∈ pl := by
  induction pl with
  | nil => simp [findFun]
  | cons e pl ih =>
    obtain ⟨k, f⟩ := e
    rw [findFun]
    by_cases h : k = key
    · subst h
      rw [if_pos rfl]
      exact ⟨fun _ => ⟨f, List.mem_cons_self ..⟩, fun _ => rfl⟩
    · rw [if_neg h, ih]
      constructor
      · rintro ⟨g, hg⟩; exact ⟨g, List.mem_cons_of_mem _ hg⟩
      · rintro ⟨g, hg⟩
        rcases List.mem_cons.mp hg with hg | hg
        · injection hg with h1 _; exact absurd h1.symm h
        · exact ⟨g, hg⟩

theorem findTarget_some {input : Bytes} {supported : List Bytes} {pl : Pipelines} {t : Bytes}
    (h : findTarget input supported pl = some t) : ∃ before f after, pl = before ++ ((input, t), f) :: after ∧ t ∈ supported ∧
      ∀ e ∈ before, e.1.1 = input → e.1.2 ∉ supported := by
  induction pl with
  | nil => cases h
  | cons e pl ih =>
    obtain ⟨⟨i, t'⟩, f⟩ := e
    rw [findTarget] at h
    split at h
    · rename_i hc
      cases h
      obtain ⟨rfl, hc⟩ := hc
      exact ⟨[], f, pl, rfl, List.contains_iff_mem.mp hc, by simp⟩
    · rename_i hc
      obtain ⟨b, g, a, rfl, h1, h2⟩ := ih h
      refine ⟨((i, t'), f) :: b, g, a, rfl, h1, fun e he => ?_⟩
      rcases List.mem_cons.mp he with rfl | he
      · intro hi hm; exact hc ⟨hi, List.contains_iff_mem.mpr hm⟩
      · exact h2 e he

theorem findTarget_none {input : Bytes} {supported : List Bytes} {pl : Pipelines} (h : findTarget input supported pl = none) :
    ∀ e ∈ pl, e.1.1 = input → e.1.2 ∉ supported := by
  induction pl with
  | nil => simp
  | cons e pl ih =>
    obtain ⟨⟨i, t'⟩, f⟩ := e
    rw [findTarget] at h
    split at h
    · cases h
    · rename_i hc
      intro e he
      rcases List.mem_cons.mp he with rfl | he
      · intro hi hm; exact hc ⟨hi, List.contains_iff_mem.mpr hm⟩
      · exact ih h e he

theorem mem_inputsOfPipelines (supported : List Bytes) (x : Bytes) (pl : Pipelines) (inputs : List Bytes) :
    x ∈ inputsOfPipelines supported inputs pl ↔ x ∈ inputs ∨ ∃ t f, ((x, t), f) ∈ pl ∧ t ∈ supported := by
  induction pl generalizing inputs with
  | nil => simp [inputsOfPipelines]
  | cons e pl ih =>
    obtain ⟨⟨i, t⟩, f⟩ := e
    rw [inputsOfPipelines]
    split
    · rename_i hc
      rw [ih]
      simp only [List.mem_append, List.mem_cons, List.not_mem_nil, or_false, Prod.mk.injEq]
      constructor
      · rintro ((h | rfl) | ⟨t', f', h1, h2⟩)
        · exact .inl h
        · exact .inr ⟨t, f, .inl ⟨⟨rfl, rfl⟩, rfl⟩, List.contains_iff_mem.mp hc.1⟩
        · exact .inr ⟨t', f', .inr h1, h2⟩
      · rintro (h | ⟨t', f', (⟨⟨rfl, rfl⟩, rfl⟩ | h1), h2⟩)
        · exact .inl (.inl h)
        · exact .inl (.inr rfl)
        · exact .inr ⟨t', f', h1, h2⟩
    · rename_i hc
      rw [ih]
      constructor
      · rintro (h | ⟨t', f', h1, h2⟩)
        · exact .inl h
        · exact .inr ⟨t', f', List.mem_cons_of_mem _ h1, h2⟩
      · rintro (h | ⟨t', f', h1, h2⟩)
        · exact .inl h
        · rcases List.mem_cons.mp h1 with h1 | h1
          · cases h1
            left
            by_cases hi : inputs.contains x
            · exact List.contains_iff_mem.mp hi
            · exact absurd ⟨List.contains_iff_mem.mpr h2, hi⟩ hc
          · exact .inr ⟨t', f', h1, h2⟩

theorem mem_addMissing (x : Bytes) (l inputs : List Bytes) : x ∈ addMissing inputs l ↔ x ∈ inputs ∨ x ∈ l := by
  induction l generalizing inputs with
  | nil => simp [addMissing]
  | cons f l ih =>
    rw [addMissing]
    split
    · rename_i hc
      rw [ih]
      have := List.contains_iff_mem.mp hc
      constructor
      · rintro (h | h) <;> simp [h]
      · rintro (h | h)
        · exact .inl h
        · rcases List.mem_cons.mp h with rfl | h
          · exact .inl this
          · exact .inr h
    · rw [ih]; simp [or_assoc]

theorem nodup_snoc {l : List Bytes} {x : Bytes} (h : l.Nodup) (hx : x ∉ l) : (l ++ [x]).Nodup := by
  rw [List.nodup_append]
  refine ⟨h, by simp, fun a ha b hb => ?_⟩
  obtain rfl := List.mem_singleton.mp hb
  rintro rfl; exact hx ha

theorem nodup_inputsOfPipelines (supported : List Bytes) (pl : Pipelines) (inputs : List Bytes) (h : inputs.Nodup) :
    (inputsOfPipelines supported inputs pl).Nodup := by
  induction pl generalizing inputs with
  | nil => exact h
  | cons e pl ih =>
    obtain ⟨⟨i, t⟩, f⟩ := e
    rw [inputsOfPipelines]
    split
    · rename_i hc
      exact ih _ (nodup_snoc h (fun hm => hc.2 (List.contains_iff_mem.mpr hm)))
    · exact ih _ h

theorem nodup_addMissing (l inputs : List Bytes) (h : inputs.Nodup) : (addMissing inputs l).Nodup := by
  induction l generalizing inputs with
  | nil => exact h
  | cons f l ih =>
    rw [addMissing]
    split
    · exact ih _ h
    · rename_i hc
      exact ih _ (nodup_snoc h (fun hm => hc (List.contains_iff_mem.mpr hm)))

/-- C29, the conversion function: there is one exactly for pipelines and for equal formats. -/
theorem C29_convert_fun (pl : Pipelines) (input target : Bytes) :
    (∃ f, getConvertFun pl input target = some f) ↔ Convertible pl input target := by
  unfold getConvertFun Convertible
  have := findFun_isSome (input, target) pl
  cases h : findFun (input, target) pl with
  | some f => rw [h] at this; exact ⟨fun _ => .inl (this.mp rfl), fun _ => ⟨f, rfl⟩⟩
  | none =>
    rw [h] at this
    have hn : ¬ ∃ f, ((input, target), f) ∈ pl := fun hx => by have := this.mpr hx; cases this
    by_cases he : input = target
    · simp [he]
    · rw [if_neg he]
      refine ⟨fun hx => ?_, fun hx => hx.elim (fun hx => absurd hx hn) (fun hx => absurd hx he)⟩
      obtain ⟨f, hf⟩ := hx
      cases hf

/-- C29, the target format: it is supported, there is a conversion function for it, and it is the target of the first pipeline for the
input with a supported target; without such a pipeline it is the input format. -/
theorem C29_target_format (pl : Pipelines) (input : Bytes) (supported : List Bytes) (t : Bytes)
    (h : getTargetFormat pl input supported = some t) :
    t ∈ supported ∧ (∃ f, getConvertFun pl input t = some f) ∧
      ((∃ before f after, pl = before ++ ((input, t), f) :: after ∧ ∀ e ∈ before, e.1.1 = input → e.1.2 ∉ supported) ∨
        (t = input ∧ ∀ e ∈ pl, e.1.1 = input → e.1.2 ∉ supported)) := by
  unfold getTargetFormat at h
  cases hf : findTarget input supported pl with
  | some t' =>
    rw [hf] at h; cases h
    obtain ⟨b, f, a, h1, h2, h3⟩ := findTarget_some hf
    refine ⟨h2, (C29_convert_fun pl input t).mpr (.inl ⟨f, ?_⟩), .inl ⟨b, f, a, h1, h3⟩⟩
    rw [h1]; simp
  | none =>
    rw [hf] at h
    simp only at h
    split at h
    · rename_i hc
      cases h
      exact ⟨List.contains_iff_mem.mp hc, (C29_convert_fun pl input input).mpr (.inr rfl), .inr ⟨rfl, findTarget_none hf⟩⟩
    · cases h

example : getTargetFormat defaultPipelines pdf [jpeg, urf, pwg] = some pwg ∧
    getTargetFormat (((jpeg, urf), .user 1) :: defaultPipelines) jpeg [jpeg, urf] = some urf := by decide +kernel

/-- C29, existence: a target format is found exactly if some way leads from the input to a supported format. -/
theorem C29_target_exists (pl : Pipelines) (input : Bytes) (supported : List Bytes) :
    (∃ t, getTargetFormat pl input supported = some t) ↔ ∃ t ∈ supported, Convertible pl input t := by
  constructor
  · rintro ⟨t, h⟩
    obtain ⟨h1, h2, _⟩ := C29_target_format pl input supported t h
    exact ⟨t, h1, (C29_convert_fun pl input t).mp h2⟩
  · rintro ⟨t, ht, hc⟩
    unfold getTargetFormat
    cases hf : findTarget input supported pl with
    | some t' => exact ⟨t', rfl⟩
    | none =>
      rcases hc with ⟨f, hf'⟩ | rfl
      · exact absurd ht (findTarget_none hf _ hf' rfl)
      · exact ⟨input, by simp [ht]⟩

/-- C29, advertised formats: an input format is advertised exactly if a target format is found for it, and only once. -/
theorem C29_advertised (pl : Pipelines) (supported : List Bytes) :
    (∀ input, input ∈ possibleInputFormats pl supported ↔ ∃ t, getTargetFormat pl input supported = some t) ∧
    (possibleInputFormats pl supported).Nodup := by
  constructor
  · intro input
    rw [C29_target_exists, possibleInputFormats, mem_addMissing, mem_inputsOfPipelines]
    unfold Convertible
    constructor
    · rintro ((h | ⟨t, f, h1, h2⟩) | h)
      · cases h
      · exact ⟨t, h2, .inl ⟨f, h1⟩⟩
      · exact ⟨input, h, .inr rfl⟩
    · rintro ⟨t, h1, ⟨f, h2⟩ | rfl⟩
      · exact .inl (.inr ⟨t, f, h2, h1⟩)
      · exact .inr h1
  · exact nodup_addMissing _ _ (nodup_inputsOfPipelines _ _ _ List.nodup_nil)

end Verif.Job
