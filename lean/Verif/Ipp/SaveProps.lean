import Verif.Ipp.SettingProps

/-!
# Property C28: saving and restoring settings
-/

namespace Verif.Ipp

open Spec

/-- The full claim of C28, for the settings of a job: after saving the settings of one job and restoring them in another, the settings which
were set have the saved value, and the others are as they were. -/
def C28 : Prop := ∀ (pa op job op0 job0 : Attrs) (files : Store) (tag : UInt8) (uuid : Bytes),
  KMap.get? pa (ascii "printer-uuid") = some (tag, .str uuid) →
  GroupOk op → GroupOk job → (∀ n a, (n, a) ∈ op → noDate a.2 = true) → (∀ n a, (n, a) ∈ job → noDate a.2 = true) →
  CollectionsOk opSettings op → CollectionsOk jobSettings job → CollectionsOk opSettings op0 → CollectionsOk jobSettings job0 →
  ∃ files' op1 job1, saveSettings pa op job files = .ok (true, files') ∧
    restoreSettings pa op0 job0 files' = .ok (op1, job1) ∧
    (∀ s ∈ opSettings, at_ op1 (s.subKey, s.name) = (at_ op (s.subKey, s.name)).or (at_ op0 (s.subKey, s.name))) ∧
    (∀ s ∈ jobSettings, at_ job1 (s.subKey, s.name) = (at_ job (s.subKey, s.name)).or (at_ job0 (s.subKey, s.name)))

theorem sorted_assignAll {m : Attrs} (hs : KMap.Sorted m) (l : List (Bytes × Attr)) : KMap.Sorted (assignAll m l) := by
  induction l generalizing m with
  | nil => exact hs
  | cons e l ih => exact ih (KMap.sorted_assign hs _ _)

theorem get?_assignAll {m : Attrs} (hs : KMap.Sorted m) {l : Attrs} (hl : KMap.Sorted l) (k : Bytes) :
    KMap.get? (assignAll m l) k = (KMap.get? l k).or (KMap.get? m k) := by
  induction l generalizing m with
  | nil => simp [assignAll, KMap.get?]
  | cons e l ih =>
    obtain ⟨k0, v0⟩ := e
    have : assignAll m ((k0, v0) :: l) = assignAll (KMap.assign m k0 v0) l := rfl
    rw [this, ih (KMap.sorted_assign hs _ _) hl.tail, KMap.get?_assign hs, KMap.get?]
    by_cases hk : k = k0
    · subst hk
      have : KMap.get? l k = none := KMap.get?_none_of_lt (fun e he => (List.pairwise_cons.mp hl).1 e he)
      simp [this]
    · simp [hk]

theorem itemsAt_op (op job : Attrs) : itemsAt (.obj (settingsToJson op job)) (ascii "op-attrs") = attrsToJson op := by
  unfold settingsToJson itemsAt
  by_cases h1 : op = [] <;> by_cases h2 : job = []
  · simp [h1, h2, Json.objectItems, KMap.get?, attrsToJson, membersToJson]
  · simp only [h1, h2, if_true, if_false, Json.objectItems, KMap.assign, KMap.get?]
    rw [if_neg (by decide +kernel)]; simp [attrsToJson, membersToJson]
  · simp only [h1, h2, if_true, if_false, Json.objectItems, KMap.assign, KMap.get?]
    simp [attrsToJson]
  · simp only [h1, h2, if_false, Json.objectItems, KMap.assign]
    rw [if_pos (by decide +kernel), KMap.get?, if_neg (by decide +kernel), KMap.get?, if_pos rfl]
    simp [attrsToJson]

theorem itemsAt_job (op job : Attrs) : itemsAt (.obj (settingsToJson op job)) (ascii "job-attrs") = attrsToJson job := by
  unfold settingsToJson itemsAt
  by_cases h1 : op = [] <;> by_cases h2 : job = []
  · simp [h1, h2, Json.objectItems, KMap.get?, attrsToJson, membersToJson]
  · simp only [h1, h2, if_true, if_false, Json.objectItems, KMap.assign, KMap.get?]
    simp [attrsToJson]
  · simp only [h1, h2, if_true, if_false, Json.objectItems, KMap.assign, KMap.get?]
    rw [if_neg (by decide +kernel)]; simp [attrsToJson, membersToJson]
  · simp only [h1, h2, if_false, Json.objectItems, KMap.assign]
    rw [if_pos (by decide +kernel), KMap.get?, if_pos rfl]
    simp [attrsToJson]

/-- C28 on whole attributes: what was saved is there, the rest is as before; other printers' files are as before. -/
theorem C28_restore_attributes_partial (pa op job op0 job0 : Attrs) (files : Store) (tag : UInt8) (uuid : Bytes)
    (hu : KMap.get? pa (ascii "printer-uuid") = some (tag, .str uuid)) (hop : GroupOk op) (hjob : GroupOk job)
    (hd1 : ∀ n a, (n, a) ∈ op → noDate a.2 = true) (hd2 : ∀ n a, (n, a) ∈ job → noDate a.2 = true)
    (h0 : KMap.Sorted op0) (h0' : KMap.Sorted job0) :
    ∃ files' op1 job1, saveSettings pa op job files = .ok (true, files') ∧
      restoreSettings pa op0 job0 files' = .ok (op1, job1) ∧ KMap.Sorted op1 ∧ KMap.Sorted job1 ∧
      (∀ n, KMap.get? op1 n = (KMap.get? op n).or (KMap.get? op0 n)) ∧
      (∀ n, KMap.get? job1 n = (KMap.get? job n).or (KMap.get? job0 n)) ∧ (∀ f, f ≠ uuid → files' f = files f) := by
  have hs : saveSettings pa op job files =
      .ok (true, fun f => if f = uuid then some (.obj (settingsToJson op job)) else files f) := by
    unfold saveSettings; rw [hu]
  refine ⟨_, assignAll op0 op, assignAll job0 job, hs, ?_, sorted_assignAll h0 _, sorted_assignAll h0' _,
    get?_assignAll h0 hop.1, get?_assignAll h0' hjob.1, fun f hf => by simp [hf]⟩
  unfold restoreSettings
  simp only [hu, if_true, restoreFrom]
  rw [itemsAt_op, itemsAt_job, C26_json_group_partial op hop hd1, C26_json_group_partial job hjob hd2]; rfl

/-- C28 for single settings: settings which were set have the saved value; settings which were not set are as before unless
they live in a collection which was saved with other members. What is missing: those (`C28_restore_false`). -/
theorem C28_restore_partial (pa op job op0 job0 : Attrs) (files : Store) (tag : UInt8) (uuid : Bytes)
    (hu : KMap.get? pa (ascii "printer-uuid") = some (tag, .str uuid)) (hop : GroupOk op) (hjob : GroupOk job)
    (hd1 : ∀ n a, (n, a) ∈ op → noDate a.2 = true) (hd2 : ∀ n a, (n, a) ∈ job → noDate a.2 = true)
    (h0 : CollectionsOk opSettings op0) (h0' : CollectionsOk jobSettings job0) (hc : CollectionsOk jobSettings job) :
    ∃ files' op1 job1, saveSettings pa op job files = .ok (true, files') ∧
      restoreSettings pa op0 job0 files' = .ok (op1, job1) ∧ CollectionsOk opSettings op1 ∧ CollectionsOk jobSettings job1 ∧
      (∀ s ∈ opSettings, at_ op1 (s.subKey, s.name) = (at_ op (s.subKey, s.name)).or (at_ op0 (s.subKey, s.name))) ∧
      (∀ s ∈ jobSettings, at_ job (s.subKey, s.name) ≠ none →
        at_ job1 (s.subKey, s.name) = at_ job (s.subKey, s.name) ∧ ∀ pa' fb, s.get pa' job1 fb = s.get pa' job fb) ∧
      (∀ s ∈ jobSettings, at_ job (s.subKey, s.name) = none → (s.subKey ≠ [] → KMap.get? job s.subKey = none) →
        at_ job1 (s.subKey, s.name) = at_ job0 (s.subKey, s.name) ∧ ∀ pa' fb, s.get pa' job1 fb = s.get pa' job0 fb) := by
  obtain ⟨files', op1, job1, h1, h2, hs1, hs2, h3, h4, _⟩ :=
    C28_restore_attributes_partial pa op job op0 job0 files tag uuid hu hop hjob hd1 hd2 h0.1 h0'.1
  have hnosub : ∀ s ∈ opSettings, s.subKey = [] := by decide +kernel
  have hc1 : CollectionsOk jobSettings job1 := by
    refine ⟨hs2, fun s hs hk a ha => ?_⟩
    rw [h4] at ha
    cases hg : KMap.get? job s.subKey with
    | some b => rw [hg] at ha; cases ha; exact hc.2 s hs hk _ hg
    | none => rw [hg] at ha; exact h0'.2 s hs hk a ha
  refine ⟨files', op1, job1, h1, h2, ⟨hs1, fun s hs hk => absurd (hnosub s hs) hk⟩, hc1, ?_, ?_, ?_⟩
  · intro s hs
    simp only [at_, hnosub s hs, if_true, h3]
  · intro s hs hne
    have : at_ job1 (s.subKey, s.name) = at_ job (s.subKey, s.name) := by
      unfold at_ at hne ⊢
      by_cases hk : s.subKey = []
      · simp only [hk, if_true] at hne ⊢
        rw [h4]
        cases hg : KMap.get? job s.name with
        | none => exact absurd hg hne
        | some a => rfl
      · simp only [hk, if_false] at hne ⊢
        rw [h4]
        cases hg : KMap.get? job s.subKey with
        | none => rw [hg] at hne; exact absurd rfl hne
        | some a => rfl
    exact ⟨this, fun pa' fb => by rw [get_eq hs hc1, get_eq hs hc, this]⟩
  · intro s hs hnone hcol
    have : at_ job1 (s.subKey, s.name) = at_ job0 (s.subKey, s.name) := by
      unfold at_ at hnone ⊢
      by_cases hk : s.subKey = []
      · simp only [hk, if_true] at hnone ⊢
        rw [h4, hnone]; rfl
      · simp only [hk, if_false]
        rw [h4, hcol hk]; rfl
    exact ⟨this, fun pa' fb => by rw [get_eq hs hc1, get_eq hs h0', this]⟩

/-- Saving is refused, and restoring changes nothing, for a printer without uuid. -/
theorem C28_no_uuid (pa op job : Attrs) (files : Store) (hu : KMap.get? pa (ascii "printer-uuid") = none) :
    saveSettings pa op job files = .ok (false, files) ∧ restoreSettings pa op job files = .ok (op, job) := by
  constructor
  · unfold saveSettings; rw [hu]
  · unfold restoreSettings; rw [hu]

example : KMap.get? ([] : Attrs) (ascii "printer-uuid") = none := rfl

/-- Saved job attributes of the witness: the tray. -/
def savedJob : Attrs := [(ascii "media-col", (0x34, .coll [(ascii "media-source", (0x44, .str (ascii "tray-1")))]))]
/-- The attributes of the job in which they are restored: the paper type. -/
def otherJob : Attrs := [(ascii "media-col", (0x34, .coll [(ascii "media-type", (0x44, .str (ascii "photo")))]))]
/-- A printer with uuid. -/
def uuidAttrs : Attrs := [(ascii "printer-uuid", (0x45, .str (ascii "urn:uuid:1")))]

theorem collectionsOk_single {m : Attrs} {n : Bytes} (hs : KMap.Sorted m) :
    CollectionsOk jobSettings [(n, (0x34, .coll m))] := by
  refine ⟨by simp [KMap.Sorted], fun s _ _ a ha => ?_⟩
  rw [KMap.get?] at ha
  split at ha
  · cases ha; exact ⟨_, _, rfl, hs⟩
  · cases ha

theorem savedJob_ok : GroupOk savedJob ∧ (∀ n a, (n, a) ∈ savedJob → noDate a.2 = true) ∧ CollectionsOk jobSettings savedJob ∧
    CollectionsOk jobSettings otherJob := by
  refine ⟨⟨by unfold KMap.Sorted; decide +kernel, ?_⟩, ?_, collectionsOk_single (by simp [KMap.Sorted]),
    collectionsOk_single (by simp [KMap.Sorted])⟩
  · intro n a h
    simp only [savedJob, List.mem_cons, List.not_mem_nil, or_false, Prod.mk.injEq] at h
    obtain ⟨rfl, rfl⟩ := h
    refine ⟨by decide +kernel, by decide +kernel, ?_⟩
    simp only [WellTyped, MembersOk, PlainOk]
    unfold KMap.Sorted
    decide +kernel
  · intro n a h
    simp only [savedJob, List.mem_cons, List.not_mem_nil, or_false, Prod.mk.injEq] at h
    obtain ⟨rfl, rfl⟩ := h
    rfl

/-- The hypotheses of `C28_restore_partial` can be met. -/
example : KMap.get? uuidAttrs (ascii "printer-uuid") = some (0x45, .str (ascii "urn:uuid:1")) ∧ GroupOk savedJob ∧
    CollectionsOk jobSettings savedJob ∧ CollectionsOk jobSettings otherJob :=
  ⟨by decide +kernel, savedJob_ok.1, savedJob_ok.2.2.1, savedJob_ok.2.2.2⟩

/-- C28 is false: restoring replaces the whole `media-col` collection, and the paper type, which was not saved, is lost. -/
theorem C28_restore_false : ¬ C28 := by
  intro hc
  have hok := savedJob_ok
  have hno : ∀ a : Attrs, KMap.Sorted a → CollectionsOk opSettings a := fun a ha =>
    ⟨ha, fun s hs hk => absurd ((by decide +kernel : ∀ s ∈ opSettings, s.subKey = []) s hs) hk⟩
  obtain ⟨files', op1, job1, h1, h2, _, h4⟩ := hc uuidAttrs [] savedJob [] otherJob (fun _ => none) 0x45 (ascii "urn:uuid:1")
    (by decide +kernel) ⟨KMap.sorted_nil, fun _ _ h => by cases h⟩ hok.1 (fun _ _ h => by cases h) hok.2.1
    (hno _ KMap.sorted_nil) hok.2.2.1 (hno _ KMap.sorted_nil) hok.2.2.2
  obtain ⟨files'', op1', job1', h1', h2', _, _, _, h4', _⟩ := C28_restore_attributes_partial uuidAttrs [] savedJob [] otherJob
    (fun _ => none) 0x45 (ascii "urn:uuid:1") (by decide +kernel) ⟨KMap.sorted_nil, fun _ _ h => by cases h⟩ hok.1
    (fun _ _ h => by cases h) hok.2.1 KMap.sorted_nil hok.2.2.2.1
  rw [h1] at h1'; cases h1'
  rw [h2] at h2'; cases h2'
  have h5 := h4 sMediaType (by decide +kernel)
  have h6 : at_ job1 (sMediaType.subKey, sMediaType.name) = none := by
    unfold at_
    rw [if_neg (by decide +kernel)]
    simp only [h4']
    decide +kernel
  rw [h6] at h5
  exact absurd h5 (by decide +kernel)

end Verif.Ipp
