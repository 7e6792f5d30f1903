import Verif.Ipp.Setting
import Verif.Ipp.JsonProps

/-!
# Properties C27 (settings are independent variables) and C54 (supported values)
-/

namespace Verif.Ipp

/-! ## Specification -/

namespace Spec

/-- A place in a group of attributes: the name of a collection (empty: none) and a name. -/
abbrev Place := Bytes × Bytes

/-- What is found at a place. -/
def at_ (attrs : Attrs) (p : Place) : Option Attr :=
  if p.1 = [] then KMap.get? attrs p.2
  else match KMap.get? attrs p.1 with
    | some (_, .coll m) => KMap.get? m p.2
    | _ => none

/-- An operation on a setting. -/
inductive Op where
  | set (s : Setting) (v : Value)
  | unset (s : Setting)

/-- The setting an operation is about. -/
def Op.setting : Op → Setting
  | .set s _ => s
  | .unset s => s

/-- What an operation leaves in its setting. -/
def Op.leaves : Op → Option Value
  | .set _ v => some v
  | .unset _ => none

/-- The last operation on a setting, if any, and what it leaves. -/
def last (s : Setting) (ops : List Op) : Option (Option Value) :=
  ((ops.filter (fun o => decide (o.setting = s))).getLast?).map Op.leaves

/-- Different settings have different places, and no setting is itself the collection of another one. -/
def Independent (S : List Setting) : Prop :=
  (∀ s ∈ S, ∀ s' ∈ S, s ≠ s' → (s.subKey, s.name) ≠ (s'.subKey, s'.name)) ∧
  (∀ s ∈ S, ∀ s' ∈ S, s.subKey = [] → s'.subKey ≠ [] → s.name ≠ s'.subKey)

/-- The attributes are a map, and where settings expect a collection there is none, or one that is a map. -/
def CollectionsOk (S : List Setting) (attrs : Attrs) : Prop :=
  KMap.Sorted attrs ∧ ∀ s ∈ S, s.subKey ≠ [] → ∀ a, KMap.get? attrs s.subKey = some a →
    ∃ tag m, a = (tag, .coll m) ∧ KMap.Sorted m

/-- The collections of settings that are there have members. -/
def NoEmpty (S : List Setting) (attrs : Attrs) : Prop := ∀ s ∈ S, s.subKey ≠ [] → ∀ tag, KMap.get? attrs s.subKey ≠ some (tag, .coll [])

end Spec

open Spec

/-- A setting's operations, one after the other. -/
def apply (o : Op) (attrs : Attrs) : Outcome Attrs :=
  match o with
  | .set s v => s.set v attrs
  | .unset s => s.unset attrs

/-- A sequence of operations. -/
def applyAll : List Op → Attrs → Outcome Attrs
  | [], attrs => .ok attrs
  | o :: r, attrs => do
    let a ← apply o attrs
    applyAll r a

/-- A place which is inside the collection of a setting, or is not such a collection itself. -/
def PlaceOk (S : List Setting) (p : Place) : Prop :=
  (p.1 = [] → ∀ s ∈ S, s.subKey ≠ [] → p.2 ≠ s.subKey) ∧ (p.1 ≠ [] → ∃ s ∈ S, s.subKey = p.1)

theorem ne_nil_of_get? {m : Attrs} {k : Bytes} {a : Attr} (h : KMap.get? m k = some a) : m ≠ [] := by
  rintro rfl; cases h

theorem subCollection_ok {S : List Setting} {s : Setting} {attrs : Attrs} (hi : CollectionsOk S attrs) (hs : s ∈ S)
    (hk : s.subKey ≠ []) : ∃ m, subCollection attrs s.subKey = .ok m ∧ KMap.Sorted m ∧
      (∀ n, at_ attrs (s.subKey, n) = KMap.get? m n) ∧ (KMap.get? attrs s.subKey = none → m = []) := by
  unfold subCollection at_
  cases hg : KMap.get? attrs s.subKey with
  | none => exact ⟨[], rfl, KMap.sorted_nil, by simp [hk, hg, KMap.get?], fun _ => rfl⟩
  | some a =>
    obtain ⟨tag, m, rfl, hm⟩ := hi.2 s hs hk a hg
    exact ⟨m, rfl, hm, by simp [hk, hg], by simp⟩

/-- Replacing the collection of a setting. -/
theorem at_assign_coll {attrs : Attrs} (hs : KMap.Sorted attrs) {k : Bytes} (hk : k ≠ []) {m' : Attrs} (p : Place)
    (hp : p.1 = [] → p.2 ≠ k) :
    at_ (KMap.assign attrs k (tBeginCollection, .coll m')) p = if p.1 = k then KMap.get? m' p.2 else at_ attrs p := by
  unfold at_
  rw [KMap.get?_assign hs, KMap.get?_assign hs]
  by_cases h1 : p.1 = []
  · simp [h1, hp h1, Ne.symm hk]
  · by_cases h2 : p.1 = k <;> simp [h1, h2, hk]

theorem at_erase_coll {attrs : Attrs} {k : Bytes} (hk : k ≠ []) (p : Place) (hp : p.1 = [] → p.2 ≠ k) :
    at_ (KMap.erase attrs k) p = if p.1 = k then none else at_ attrs p := by
  unfold at_
  rw [KMap.get?_erase, KMap.get?_erase]
  by_cases h1 : p.1 = []
  · simp [h1, hp h1, Ne.symm hk]
  · by_cases h2 : p.1 = k <;> simp [h1, h2, hk]

theorem set_step {S : List Setting} (hS : Independent S) {s : Setting} (hs : s ∈ S) (v : Value) {attrs : Attrs}
    (hi : CollectionsOk S attrs) : ∃ a', s.set v attrs = .ok a' ∧ CollectionsOk S a' ∧
      ∀ p, PlaceOk S p → at_ a' p = if p = (s.subKey, s.name) then some (s.tag, v) else at_ attrs p := by
  unfold Setting.set
  by_cases hk : s.subKey = []
  · rw [if_neg (by simp [hk])]
    refine ⟨_, rfl, ⟨KMap.sorted_assign hi.1 _ _, fun s' hs' hk' a ha => ?_⟩, fun p hp => ?_⟩
    · rw [KMap.get?_assign hi.1, if_neg (fun h => hS.2 s hs s' hs' hk hk' h.symm)] at ha
      exact hi.2 s' hs' hk' a ha
    · unfold at_
      rw [KMap.get?_assign hi.1, KMap.get?_assign hi.1]
      obtain ⟨p1, p2⟩ := p
      by_cases h1 : p1 = []
      · subst h1; simp [hk]
      · obtain ⟨s', hs', h2⟩ := hp.2 h1
        have h2 : s'.subKey = p1 := h2
        have h3 : p1 ≠ s.name := by
          intro h; exact hS.2 s hs s' hs' hk (by rw [h2]; exact h1) (by rw [h2, h])
        simp [h1, hk, h3]
  · rw [if_pos hk]
    obtain ⟨m, hm, hsm, hat, _⟩ := subCollection_ok hi hs hk
    rw [hm]
    refine ⟨_, rfl, ⟨KMap.sorted_assign hi.1 _ _, fun s' hs' hk' a ha => ?_⟩, fun p hp => ?_⟩
    · rw [KMap.get?_assign hi.1] at ha
      split at ha
      · cases ha
        exact ⟨_, _, rfl, KMap.sorted_assign hsm _ _⟩
      · exact hi.2 s' hs' hk' a ha
    · rw [at_assign_coll hi.1 hk p (fun h => hp.1 h s hs hk), KMap.get?_assign hsm]
      obtain ⟨p1, p2⟩ := p
      by_cases h1 : p1 = s.subKey
      · subst h1
        simp only [if_true, Prod.mk.injEq, true_and, hat]
      · simp [h1]

theorem unset_step {S : List Setting} (hS : Independent S) {s : Setting} (hs : s ∈ S) {attrs : Attrs}
    (hi : CollectionsOk S attrs) : ∃ a', s.unset attrs = .ok a' ∧ CollectionsOk S a' ∧
      ∀ p, PlaceOk S p → at_ a' p = if p = (s.subKey, s.name) then none else at_ attrs p := by
  unfold Setting.unset
  by_cases hk : s.subKey = []
  · rw [if_neg (by simp [hk])]
    refine ⟨_, rfl, ⟨KMap.sorted_erase hi.1 _, fun s' hs' hk' a ha => ?_⟩, fun p hp => ?_⟩
    · rw [KMap.get?_erase, if_neg (fun h => hS.2 s hs s' hs' hk hk' h.symm)] at ha
      exact hi.2 s' hs' hk' a ha
    · unfold at_
      rw [KMap.get?_erase, KMap.get?_erase]
      obtain ⟨p1, p2⟩ := p
      by_cases h1 : p1 = []
      · subst h1; simp [hk]
      · obtain ⟨s', hs', h2⟩ := hp.2 h1
        have h2 : s'.subKey = p1 := h2
        have h3 : p1 ≠ s.name := by
          intro h; exact hS.2 s hs s' hs' hk (by rw [h2]; exact h1) (by rw [h2, h])
        simp [h1, hk, h3]
  · rw [if_pos hk]
    obtain ⟨m, hm, hsm, hat, _⟩ := subCollection_ok hi hs hk
    rw [hm]
    have hget : ∀ n, KMap.get? (KMap.erase m s.name) n = if n = s.name then none else at_ attrs (s.subKey, n) := by
      intro n; rw [KMap.get?_erase, hat]
    by_cases he : KMap.erase m s.name = []
    · refine ⟨KMap.erase attrs s.subKey, by simp [Setting.putBack, he], ⟨KMap.sorted_erase hi.1 _, fun s' hs' hk' a ha => ?_⟩,
        fun p hp => ?_⟩
      · rw [KMap.get?_erase] at ha
        split at ha
        · cases ha
        · exact hi.2 s' hs' hk' a ha
      · rw [at_erase_coll hk p (fun h => hp.1 h s hs hk)]
        obtain ⟨p1, p2⟩ := p
        by_cases h1 : p1 = s.subKey
        · subst h1
          have := hget p2
          rw [he, KMap.get?] at this
          simp only [if_true, Prod.mk.injEq, true_and]
          exact this
        · simp [h1]
    · refine ⟨KMap.assign attrs s.subKey (tBeginCollection, .coll (KMap.erase m s.name)), by simp [Setting.putBack, he],
        ⟨KMap.sorted_assign hi.1 _ _, fun s' hs' hk' a ha => ?_⟩, fun p hp => ?_⟩
      · rw [KMap.get?_assign hi.1] at ha
        split at ha
        · cases ha
          exact ⟨_, _, rfl, KMap.sorted_erase hsm _⟩
        · exact hi.2 s' hs' hk' a ha
      · rw [at_assign_coll hi.1 hk p (fun h => hp.1 h s hs hk)]
        obtain ⟨p1, p2⟩ := p
        by_cases h1 : p1 = s.subKey
        · subst h1
          simp only [if_true, Prod.mk.injEq, true_and]
          exact hget p2
        · simp [h1]

theorem apply_step {S : List Setting} (hS : Independent S) {o : Op} (ho : o.setting ∈ S) {attrs : Attrs}
    (hi : CollectionsOk S attrs) : ∃ a', apply o attrs = .ok a' ∧ CollectionsOk S a' ∧
      ∀ p, PlaceOk S p → at_ a' p =
        if p = (o.setting.subKey, o.setting.name) then o.leaves.map (fun v => (o.setting.tag, v)) else at_ attrs p := by
  cases o with
  | set s v => exact set_step hS ho v hi
  | unset s => exact unset_step hS ho hi

/-- The last operation at a place, and what it leaves. -/
def lastAt (p : Place) (ops : List Op) : Option (Option Attr) :=
  ((ops.filter (fun o => decide ((o.setting.subKey, o.setting.name) = p))).getLast?).map
    (fun o => o.leaves.map (fun v => (o.setting.tag, v)))

theorem lastAt_cons (p : Place) (o : Op) (ops : List Op) :
    lastAt p (o :: ops) = (lastAt p ops).or
      (if (o.setting.subKey, o.setting.name) = p then some (o.leaves.map (fun v => (o.setting.tag, v))) else none) := by
  unfold lastAt
  rw [List.filter_cons]
  by_cases h : (o.setting.subKey, o.setting.name) = p
  · rw [if_pos (by simp [h]), if_pos h, List.getLast?_cons]
    cases List.getLast? _ <;> simp
  · rw [if_neg (by simp [h]), if_neg h]; simp

theorem applyAll_spec {S : List Setting} (hS : Independent S) (ops : List Op) (ho : ∀ o ∈ ops, o.setting ∈ S) {attrs : Attrs}
    (hi : CollectionsOk S attrs) : ∃ a', applyAll ops attrs = .ok a' ∧ CollectionsOk S a' ∧
      ∀ p, PlaceOk S p → at_ a' p = (lastAt p ops).getD (at_ attrs p) := by
  induction ops generalizing attrs with
  | nil => exact ⟨attrs, rfl, hi, fun p _ => rfl⟩
  | cons o ops ih =>
    obtain ⟨a1, h1, hi1, hp1⟩ := apply_step hS (ho o (List.mem_cons_self ..)) hi
    obtain ⟨a2, h2, hi2, hp2⟩ := ih (fun x hx => ho x (List.mem_cons_of_mem _ hx)) hi1
    refine ⟨a2, by rw [applyAll, h1]; exact h2, hi2, fun p hp => ?_⟩
    rw [hp2 p hp, hp1 p hp, lastAt_cons]
    cases lastAt p ops with
    | some x => rfl
    | none =>
      by_cases h : (o.setting.subKey, o.setting.name) = p
      · simp [h]
      · simp [h, Ne.symm h]

theorem noEmpty_apply {S : List Setting} (hS : Independent S) {o : Op} (ho : o.setting ∈ S) {attrs a' : Attrs} (hi : CollectionsOk S attrs)
    (hn : NoEmpty S attrs) (h : apply o attrs = .ok a') : NoEmpty S a' := by
  intro s' hs' hk' tag hg
  cases o with
  | set s v =>
    have hs : s ∈ S := ho
    rw [apply, Setting.set] at h
    by_cases hk : s.subKey = []
    · rw [if_neg (by simp [hk])] at h
      cases h
      rw [KMap.get?_assign hi.1, if_neg (fun h => hS.2 s hs s' hs' hk hk' h.symm)] at hg
      exact hn s' hs' hk' tag hg
    · rw [if_pos hk] at h
      obtain ⟨m, hm, hsm, _⟩ := subCollection_ok hi hs hk
      rw [hm] at h
      cases h
      rw [KMap.get?_assign hi.1] at hg
      split at hg
      · injection hg with hg
        injection hg with _ hg
        injection hg with hg
        exact ne_nil_of_get? (k := s.name) (by rw [KMap.get?_assign hsm, if_pos rfl]) hg
      · exact hn s' hs' hk' tag hg
  | unset s =>
    have hs : s ∈ S := ho
    rw [apply, Setting.unset] at h
    by_cases hk : s.subKey = []
    · rw [if_neg (by simp [hk])] at h
      cases h
      rw [KMap.get?_erase, if_neg (fun h => hS.2 s hs s' hs' hk hk' h.symm)] at hg
      exact hn s' hs' hk' tag hg
    · rw [if_pos hk] at h
      obtain ⟨m, hm, hsm, _⟩ := subCollection_ok hi hs hk
      rw [hm] at h
      by_cases he : KMap.erase m s.name = []
      · have e : a' = KMap.erase attrs s.subKey := by simpa [Setting.putBack, he] using h.symm
        rw [e, KMap.get?_erase] at hg
        split at hg
        · cases hg
        · exact hn s' hs' hk' tag hg
      · have e : a' = KMap.assign attrs s.subKey (tBeginCollection, .coll (KMap.erase m s.name)) := by simpa [Setting.putBack, he] using h.symm
        rw [e, KMap.get?_assign hi.1] at hg
        split at hg
        · injection hg with hg
          injection hg with _ hg
          injection hg with hg
          exact he hg
        · exact hn s' hs' hk' tag hg

/-- C27, on empty collections: no sequence of operations leaves one behind. -/
theorem C27_no_empty (S : List Setting) (hS : Independent S) (ops : List Op) (ho : ∀ o ∈ ops, o.setting ∈ S) (attrs attrs' : Attrs)
    (hi : CollectionsOk S attrs) (hn : NoEmpty S attrs) (h : applyAll ops attrs = .ok attrs') : NoEmpty S attrs' := by
  induction ops generalizing attrs with
  | nil => cases h; exact hn
  | cons o ops ih =>
    obtain ⟨a1, h1, hi1, _⟩ := apply_step hS (ho o (List.mem_cons_self ..)) hi
    rw [applyAll, h1] at h
    exact ih (fun x hx => ho x (List.mem_cons_of_mem _ hx)) a1 hi1 (noEmpty_apply hS (ho o (List.mem_cons_self ..)) hi hn h1) h

theorem lastAt_eq {S : List Setting} (hS : Independent S) {ops : List Op} (ho : ∀ o ∈ ops, o.setting ∈ S) {s : Setting} (hs : s ∈ S) :
    lastAt (s.subKey, s.name) ops = (last s ops).map (fun x => x.map (fun v => (s.tag, v))) := by
  unfold lastAt last
  have : ops.filter (fun o => decide ((o.setting.subKey, o.setting.name) = (s.subKey, s.name))) =
      ops.filter (fun o => decide (o.setting = s)) := by
    apply List.filter_congr
    intro o hm
    by_cases h : o.setting = s
    · simp [h]
    · have := hS.1 _ (ho o hm) s hs h
      rw [decide_eq_false this, decide_eq_false h]
  rw [this, Option.map_map]
  cases hl : List.getLast? (ops.filter (fun o => decide (o.setting = s))) with
  | none => rfl
  | some o =>
    have := List.mem_of_getLast? hl
    have := (List.mem_filter.mp this).2
    simp only [decide_eq_true_eq] at this
    subst this; rfl

theorem placeOk_setting {S : List Setting} (hS : Independent S) {s : Setting} (hs : s ∈ S) : PlaceOk S (s.subKey, s.name) :=
  ⟨fun h s' hs' hk => hS.2 s hs s' hs' h hk, fun _ => ⟨s, hs, rfl⟩⟩

theorem isSet_eq {S : List Setting} {s : Setting} (hs : s ∈ S) {attrs : Attrs} (hi : CollectionsOk S attrs) :
    s.isSet attrs = .ok (at_ attrs (s.subKey, s.name)).isSome := by
  unfold Setting.isSet at_
  by_cases hk : s.subKey = []
  · simp [hk, KMap.has]
  · simp only [hk, ne_eq, not_false_eq_true, if_true, if_false]
    cases hg : KMap.get? attrs s.subKey with
    | none => rfl
    | some a =>
      obtain ⟨tag, m, rfl, _⟩ := hi.2 s hs hk a hg
      rfl

theorem get_eq {S : List Setting} {s : Setting} (hs : s ∈ S) {attrs : Attrs} (hi : CollectionsOk S attrs) (pa : Attrs) (fb : Value) :
    s.get pa attrs fb = match at_ attrs (s.subKey, s.name) with
      | some a => getAs s.ty a.2
      | none => s.getDefault pa fb := by
  unfold Setting.get
  rw [isSet_eq hs hi, Outcome.bind_ok]
  cases h : at_ attrs (s.subKey, s.name) with
  | none => simp [Setting.getIf]
  | some a =>
    simp only [Setting.getIf, Option.isSome_some, if_true]
    unfold at_ at h
    by_cases hk : s.subKey = []
    · simp only [hk, if_true] at h
      simp [hk, Setting.getAt, h]
    · simp only [hk, if_false] at h
      simp only [hk, ne_eq, not_false_eq_true, if_true]
      cases hg : KMap.get? attrs s.subKey with
      | none => rw [hg] at h; cases h
      | some b =>
        obtain ⟨tag, m, rfl, _⟩ := hi.2 s hs hk b hg
        rw [hg] at h
        simp [Setting.getAt, h]

/-! ## C27 -/

/-- C27: any sequence of operations on independent settings succeeds; afterwards every setting is set, with the last value set, or
unset, with the printer's default (or the fallback); settings without operation are as before; other attributes, and other
members of the collections, are as before. -/
theorem C27_independent_settings (S : List Setting) (hS : Independent S) (ops : List Op) (ho : ∀ o ∈ ops, o.setting ∈ S)
    (attrs : Attrs) (hi : CollectionsOk S attrs) : ∃ attrs', applyAll ops attrs = .ok attrs' ∧ CollectionsOk S attrs' ∧
      (∀ s ∈ S, ∀ v, last s ops = some (some v) → s.isSet attrs' = .ok true ∧
        ∀ pa fb, s.get pa attrs' fb = if v.ty = some s.ty then .ok v else .throws .badVariant) ∧
      (∀ s ∈ S, last s ops = some none → s.isSet attrs' = .ok false ∧
        (∀ pa fb, KMap.get? pa (s.name ++ ascii "-default") = none → s.get pa attrs' fb = .ok fb) ∧
        (∀ pa fb tag d, KMap.get? pa (s.name ++ ascii "-default") = some (tag, d) → d.ty = some s.ty →
          s.get pa attrs' fb = .ok d)) ∧
      (∀ s ∈ S, last s ops = none → s.isSet attrs' = s.isSet attrs ∧ ∀ pa fb, s.get pa attrs' fb = s.get pa attrs fb) ∧
      (∀ name, (∀ s ∈ S, name ≠ s.subKey ∧ (s.subKey = [] → name ≠ s.name)) → KMap.get? attrs' name = KMap.get? attrs name) ∧
      (∀ k name, (∃ s ∈ S, s.subKey = k) → k ≠ [] → (∀ s ∈ S, s.subKey = k → name ≠ s.name) →
        at_ attrs' (k, name) = at_ attrs (k, name)) := by
  obtain ⟨a', h1, hi', hp⟩ := applyAll_spec hS ops ho hi
  have key : ∀ s ∈ S, at_ a' (s.subKey, s.name) =
      ((last s ops).map (fun x => x.map (fun v => (s.tag, v)))).getD (at_ attrs (s.subKey, s.name)) := by
    intro s hs
    rw [hp _ (placeOk_setting hS hs), lastAt_eq hS ho hs]
  have none_of : ∀ p, (∀ s ∈ S, (s.subKey, s.name) ≠ p) → lastAt p ops = none := by
    intro p h
    unfold lastAt
    rw [List.filter_eq_nil_iff.mpr]
    · rfl
    · intro o hm
      have := h _ (ho o hm)
      simpa using this
  refine ⟨a', h1, hi', ?_, ?_, ?_, ?_, ?_⟩
  · intro s hs v hl
    have k := key s hs
    rw [hl] at k
    simp only [Option.map_some, Option.getD_some] at k
    refine ⟨by rw [isSet_eq hs hi', k]; rfl, fun pa fb => ?_⟩
    rw [get_eq hs hi', k]; rfl
  · intro s hs hl
    have k := key s hs
    rw [hl] at k
    simp only [Option.map_some, Option.map_none, Option.getD_some] at k
    refine ⟨by rw [isSet_eq hs hi', k]; rfl, fun pa fb hd => ?_, fun pa fb tag d hd ht => ?_⟩
    · rw [get_eq hs hi', k]; simp only [Setting.getDefault, Attrs.get, hd]
    · rw [get_eq hs hi', k]; simp only [Setting.getDefault, Attrs.get, hd, getAs, ht, if_true]
  · intro s hs hl
    have k := key s hs
    rw [hl] at k
    simp only [Option.map_none, Option.getD_none] at k
    refine ⟨by rw [isSet_eq hs hi', isSet_eq hs hi, k], fun pa fb => ?_⟩
    rw [get_eq hs hi', get_eq hs hi, k]
  · intro name hn
    have := hp ([], name) ⟨fun _ s hs _ => (hn s hs).1, fun h => absurd rfl h⟩
    rw [none_of _ (fun s hs h => (hn s hs).2 (by injection h) (by injection h with _ h; exact h.symm))] at this
    simpa [at_] using this
  · intro k name ⟨s, hs, hk⟩ hne hn
    have := hp (k, name) ⟨fun h => absurd h hne, fun _ => ⟨s, hs, hk⟩⟩
    rw [none_of _ (fun s' hs' h => hn s' hs' (by injection h) (by injection h with _ h; exact h.symm))] at this
    exact this

/-- C27, on the collection: starting without the collection `k`, it is there after the operations exactly if one of its settings was set
and not unset again. -/
theorem C27_collection_removed (S : List Setting) (hS : Independent S) (ops : List Op) (ho : ∀ o ∈ ops, o.setting ∈ S)
    (attrs : Attrs) (hi : CollectionsOk S attrs) (hn : NoEmpty S attrs) (k : Bytes) (hk : k ≠ []) (hkS : ∃ s ∈ S, s.subKey = k)
    (h0 : KMap.get? attrs k = none) : ∃ attrs', applyAll ops attrs = .ok attrs' ∧
      (KMap.get? attrs' k ≠ none ↔ ∃ s ∈ S, s.subKey = k ∧ ∃ v, last s ops = some (some v)) := by
  obtain ⟨a', h1, hi', hset, hunset, hsame, _, hmem⟩ := C27_independent_settings S hS ops ho attrs hi
  refine ⟨a', h1, ?_⟩
  have hat0 : ∀ n, at_ attrs (k, n) = none := by intro n; simp [at_, hk, h0]
  constructor
  · intro h
    obtain ⟨s0, hs0, hk0⟩ := hkS
    cases hg : KMap.get? a' k with
    | none => exact absurd hg h
    | some a =>
      obtain ⟨tag, m, rfl, hsm⟩ := hi'.2 s0 hs0 (by rw [hk0]; exact hk) a (by rw [hk0]; exact hg)
      cases m with
      | nil => exact absurd (by rw [hk0]; exact hg) (C27_no_empty S hS ops ho attrs a' hi hn h1 s0 hs0 (by rw [hk0]; exact hk) tag)
      | cons e m =>
        obtain ⟨n, b⟩ := e
        have hatn : at_ a' (k, n) = some b := by simp [at_, hk, hg, KMap.get?]
        by_cases hex : ∃ s ∈ S, s.subKey = k ∧ n = s.name
        · obtain ⟨s, hs, hsk, hn⟩ := hex
          subst hn; subst hsk
          refine ⟨s, hs, rfl, ?_⟩
          have hset' := isSet_eq hs hi'
          rw [hatn] at hset'
          cases hl : last s ops with
          | none =>
            have := (hsame s hs hl).1
            rw [hset', isSet_eq hs hi, hat0] at this
            cases this
          | some x =>
            cases x with
            | none =>
              have := (hunset s hs hl).1
              rw [hset'] at this; cases this
            | some v => exact ⟨v, rfl⟩
        · have := hmem k n ⟨s0, hs0, hk0⟩ hk (fun s hs hsk hn => hex ⟨s, hs, hsk, hn⟩)
          rw [hatn, hat0] at this; cases this
  · rintro ⟨s, hs, rfl, v, hl⟩ hg
    have := (hset s hs v hl).1
    rw [isSet_eq hs hi'] at this
    simp [at_, hk, hg] at this

/-- C27 for the settings that there are: no two of them have the same place, so that they are independent, both those of the job and those of the
operation. -/
theorem C27_job_settings : (jobSettings.map (fun s => (s.subKey, s.name))).Nodup ∧ (opSettings.map (fun s => (s.subKey, s.name))).Nodup ∧
    Independent jobSettings ∧ Independent opSettings := by
  refine ⟨by decide +kernel, by decide +kernel, ?_, ?_⟩
  · unfold Independent; decide +kernel
  · unfold Independent; decide +kernel

/-- The settings of a job meet the hypothesis, as does a new job; and a sequence of operations on them. -/
example : Independent jobSettings ∧ Independent opSettings ∧ CollectionsOk jobSettings [] ∧ NoEmpty jobSettings [] ∧
    (∀ o ∈ [Op.set sMediaType (.str (ascii "plain")), .set sCopies (.int 3), .unset sMediaType, .set sTopMargin (.int 100)],
      o.setting ∈ jobSettings) := by
  refine ⟨?_, ?_, ⟨KMap.sorted_nil, fun s _ _ a h => by cases h⟩, (fun s _ _ tag h => by cases h), by decide +kernel⟩
  · unfold Independent; decide +kernel
  · unfold Independent; decide +kernel

/-! ## C54 -/

/-- The values that an attribute declares. -/
def Spec.Declares (attr : Option Attr) (v : Value) : Prop :=
  match attr with
  | none => False
  | some (_, .set l) => v ∈ l
  | some (_, x) => v = x

theorem getAll_ok {t : Ty} {l : List Value} (h : ∀ v ∈ l, v.ty = some t) : getAll t l = .ok l := by
  induction l with
  | nil => rfl
  | cons v l ih =>
    rw [getAll, getAs, if_pos (h v (List.mem_cons_self ..)), ih (fun x hx => h x (List.mem_cons_of_mem _ hx))]; rfl

theorem getAll_bad {t : Ty} {l : List Value} (h : ∃ v ∈ l, v.ty ≠ some t) : getAll t l = .throws .badVariant := by
  induction l with
  | nil => obtain ⟨_, h, _⟩ := h; cases h
  | cons v l ih =>
    rw [getAll, getAs]
    by_cases hv : v.ty = some t
    · rw [if_pos hv]
      obtain ⟨x, hx, hn⟩ := h
      rcases List.mem_cons.mp hx with rfl | hx
      · exact absurd hv hn
      · rw [ih ⟨x, hx, hn⟩]; rfl
    · rw [if_neg hv]; rfl

theorem declares_asList (attr : Attr) (v : Value) : Declares (some attr) v ↔ v ∈ asList attr.2 := by
  obtain ⟨tag, x⟩ := attr
  cases x <;> simp [Declares, asList]

/-- C54 for choices: with values of the setting's type, the check says exactly whether the value is declared. -/
theorem C54_choice (s : Setting) (pa : Attrs) (v : Value)
    (ht : ∀ x, Declares (KMap.get? pa (s.name ++ ascii "-supported")) x → x.ty = some s.ty) :
    ∃ b, s.choiceSupports pa v = .ok b ∧ (b = true ↔ Declares (KMap.get? pa (s.name ++ ascii "-supported")) v) := by
  unfold Setting.choiceSupports Setting.choices Attrs.getList
  cases hg : KMap.get? pa (s.name ++ ascii "-supported") with
  | none => exact ⟨false, by simp, by simp [Declares]⟩
  | some a =>
    rw [hg] at ht
    simp only [declares_asList] at ht ⊢
    rw [getAll_ok ht]
    exact ⟨decide (v ∈ asList a.2), rfl, by simp⟩

example : (∀ x, Declares (KMap.get? [(ascii "sides-supported", ((0x44 : UInt8), Value.set [.str (ascii "one-sided"), .str (ascii "two-sided")]))]
    (sSides.name ++ ascii "-supported")) x → x.ty = some sSides.ty) := by
  intro x h
  simp only [sSides, show KMap.get? [(ascii "sides-supported", ((0x44 : UInt8), Value.set [.str (ascii "one-sided"), .str (ascii "two-sided")]))]
    (ascii "sides" ++ ascii "-supported") = some (0x44, Value.set [.str (ascii "one-sided"), .str (ascii "two-sided")]) from by decide +kernel,
    Declares, List.mem_cons, List.not_mem_nil, or_false] at h
  rcases h with rfl | rfl <;> rfl

/-- C54 for choices, when the printer declares a value of another type: an exception. -/
theorem C54_choice_bad_type (s : Setting) (pa : Attrs) (v : Value)
    (ht : ∃ x, Declares (KMap.get? pa (s.name ++ ascii "-supported")) x ∧ x.ty ≠ some s.ty) :
    s.choiceSupports pa v = .throws .badVariant := by
  unfold Setting.choiceSupports Setting.choices Attrs.getList
  obtain ⟨x, hx, hn⟩ := ht
  cases hg : KMap.get? pa (s.name ++ ascii "-supported") with
  | none => rw [hg] at hx; simp [Declares] at hx
  | some a =>
    rw [hg, declares_asList] at hx
    simp only [getAll_bad ⟨x, hx, hn⟩]; rfl

/-- C54 for numbers with a range (copies). -/
theorem C54_integer (s : Setting) (pa : Attrs) (v : Int) :
    (KMap.get? pa (s.name ++ ascii "-supported") = none → s.integerSupports pa v = .ok false) ∧
    (∀ tag l h, KMap.get? pa (s.name ++ ascii "-supported") = some (tag, .range l h) →
      s.integerSupports pa v = .ok (decide (l ≤ v ∧ v ≤ h))) ∧
    (∀ a, KMap.get? pa (s.name ++ ascii "-supported") = some a → (∀ l h, a.2 ≠ .range l h) →
      s.integerSupports pa v = .throws .badVariant) := by
  unfold Setting.integerSupports Setting.isSupported KMap.has Attrs.get
  refine ⟨fun h => by simp [h], fun tag l h hg => ?_, fun a hg hn => ?_⟩
  · simp [hg, getAs, Value.ty, Setting.bounds]
  · obtain ⟨tag, x⟩ := a
    rw [hg]
    cases x <;> simp [getAs, Value.ty] at hn ⊢

example : ∃ pa : Attrs, KMap.get? pa (sCopies.name ++ ascii "-supported") = some (0x33, .range 1 99) :=
  ⟨[(ascii "copies-supported", (0x33, .range 1 99))], by decide +kernel⟩

/-- C54 for numbers with choices (number-up), other than a range that ends at the largest `int`. -/
theorem C54_integer_choice_partial (s : Setting) (hs : s.ty = .int) (pa : Attrs) (v : Int) :
    (∀ tag l h, KMap.get? pa (s.name ++ ascii "-supported") = some (tag, .range l h) → h < 2147483647 →
      s.intChoiceSupports pa v = .ok (decide (l ≤ v ∧ v ≤ h))) ∧
    ((∀ tag l h, KMap.get? pa (s.name ++ ascii "-supported") ≠ some (tag, .range l h)) →
      (∀ x, Declares (KMap.get? pa (s.name ++ ascii "-supported")) x → x.ty = some .int) →
      ∃ b, s.intChoiceSupports pa v = .ok b ∧
        (b = true ↔ Declares (KMap.get? pa (s.name ++ ascii "-supported")) (.int v))) := by
  constructor
  · intro tag l h hg hh
    unfold Setting.intChoiceSupports Setting.intChoices
    rw [hg]
    simp only [Setting.intsBetween]
    rw [if_neg (by omega), Outcome.bind_ok, Outcome.pure_eq]
    congr 1
    rw [decide_eq_decide]
    simp only [List.mem_map, List.mem_range, Value.int.injEq]
    constructor
    · rintro ⟨i, hi, rfl⟩; omega
    · intro hv; exact ⟨(v - l).toNat, by omega, by omega⟩
  · intro hn ht
    have hc : s.intChoiceSupports pa v = s.choiceSupports pa (.int v) := by
      unfold Setting.intChoiceSupports Setting.choiceSupports Setting.intChoices Setting.choices
      rw [hs]
      split
      · rename_i h; exact absurd h (hn _ _ _)
      · rfl
    rw [hc]
    exact C54_choice s pa (.int v) (by rw [hs]; exact ht)

example : sNumberUp.ty = .int ∧ ∃ pa : Attrs, KMap.get? pa (sNumberUp.name ++ ascii "-supported") = some (0x33, .range 1 16) :=
  ⟨rfl, [(ascii "number-up-supported", (0x33, .range 1 16))], by decide +kernel⟩

/-- C54 for numbers with choices, as claimed. -/
def C54_int_choice : Prop := ∀ (s : Setting) (pa : Attrs) (v : Int) (tag : UInt8) (l h : Int),
  KMap.get? pa (s.name ++ ascii "-supported") = some (tag, .range l h) → l ≤ 2147483647 → h ≤ 2147483647 →
  s.intChoiceSupports pa v = .ok (decide (l ≤ v ∧ v ≤ h))

/-- C54 is false for a range that ends at the largest `int`: the loop counter overflows. -/
theorem C54_integer_choice_false : ¬ C54_int_choice := by
  intro hc
  have := hc sNumberUp [(ascii "number-up-supported", (0x33, .range 1 2147483647))] 1 0x33 1 2147483647 (by decide +kernel)
    (by decide) (by decide)
  rw [show sNumberUp.intChoiceSupports [(ascii "number-up-supported", (0x33, .range 1 2147483647))] 1 = .ub from by
    unfold Setting.intChoiceSupports Setting.intChoices
    rw [show KMap.get? [(ascii "number-up-supported", ((0x33 : UInt8), Value.range 1 2147483647))] (sNumberUp.name ++ ascii "-supported") =
      some (0x33, Value.range 1 2147483647) from by decide +kernel]
    rfl] at this
  cases this

/-- C54 for preferred choices as claimed: the values of either list. -/
def C54_preferred : Prop := ∀ (s : Setting) (pref : Bytes) (pa : Attrs) (v : Value),
  (∀ x, Declares (KMap.get? pa (s.name ++ ascii "-supported")) x → x.ty = some s.ty) →
  (∀ x, Declares (KMap.get? pa (s.name ++ ascii "-" ++ pref)) x → x.ty = some s.ty) →
  ∃ b, s.choiceSupports pa v = .ok b ∧ (b = true ↔ Declares (KMap.get? pa (s.name ++ ascii "-supported")) v ∨
    Declares (KMap.get? pa (s.name ++ ascii "-" ++ pref)) v)

/-- C54 is false for preferred choices (media): a medium which is ready but not in the list of the supported ones is refused.
What holds is `C54_choice`: the supported list decides. -/
theorem C54_preferred_false : ¬ C54_preferred := by
  intro hc
  have h1 : KMap.get? [(ascii "media-ready", ((0x44 : UInt8), Value.str (ascii "a4")))] (sMedia.name ++ ascii "-supported") = none := by
    decide +kernel
  have h2 : KMap.get? [(ascii "media-ready", ((0x44 : UInt8), Value.str (ascii "a4")))] (sMedia.name ++ ascii "-" ++ ascii "ready") =
    some (0x44, .str (ascii "a4")) := by decide +kernel
  obtain ⟨b, hb, hi⟩ := hc sMedia (ascii "ready") [(ascii "media-ready", (0x44, .str (ascii "a4")))] (.str (ascii "a4"))
    (by rw [h1]; intro x h; cases h) (by rw [h2]; intro x h; simp only [Declares] at h; subst h; rfl)
  rw [h1, h2] at hi
  have : sMedia.choiceSupports [(ascii "media-ready", (0x44, .str (ascii "a4")))] (.str (ascii "a4")) = .ok false := by
    unfold Setting.choiceSupports Setting.choices Attrs.getList
    rw [h1]; rfl
  rw [this] at hb
  cases hb
  simp [Declares] at hi

/-- C27, where the place of the collection holds something else: setting, unsetting and reading a setting in it are refused by an exception (`bad_variant_access`);
what is there is not replaced. -/
theorem C27_foreign (s : Setting) (hk : s.subKey ≠ []) (attrs : Attrs) (tag : UInt8) (x : Value) (hx : KMap.get? attrs s.subKey = some (tag, x))
    (hc : ∀ m, x ≠ .coll m) : (∀ v, s.set v attrs = .throws .badVariant) ∧ s.unset attrs = .throws .badVariant ∧ s.isSet attrs = .throws .badVariant ∧
    ∀ pa fb, s.get pa attrs fb = .throws .badVariant := by
  have h1 : subCollection attrs s.subKey = .throws .badVariant := by
    unfold subCollection; rw [hx]; cases x <;> first | rfl | exact absurd rfl (hc _)
  have h2 : s.isSet attrs = .throws .badVariant := by
    unfold Setting.isSet; rw [if_pos hk, hx]; cases x <;> first | rfl | exact absurd rfl (hc _)
  refine ⟨fun v => ?_, ?_, h2, fun pa fb => ?_⟩
  · unfold Setting.set; rw [if_pos hk, h1]; rfl
  · unfold Setting.unset; rw [if_pos hk, h1]; rfl
  · unfold Setting.get; rw [h2]; rfl

/-- The paper type, where `media-col` is a number. -/
example : ∃ s ∈ jobSettings, s.subKey ≠ [] ∧ KMap.get? ([(s.subKey, (0x21, .int 1))] : Attrs) s.subKey = some (0x21, .int 1) := by
  decide +kernel

end Verif.Ipp
