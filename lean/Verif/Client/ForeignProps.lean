import Verif.Client.SentProps
import Verif.Printer.FileProps

/-!
# Properties C75 and C76: settings that were saved as something else than what print expects

The files below `saved_settings` may have been changed by hand: whatever is in them, what is restored is a map whose `media-col`, where there is one, is a
collection; or it is something else, and then nothing is ever sent.
-/

namespace Verif.Client

open Ipp Ipp.Spec Job Job.Spec Printer Printer.Spec Tools Tools.Spec
open Verif.Client.Spec

/-! ## Specification -/

namespace Spec

/-- There is a `media-col` which is no collection. -/
def Foreign (a : Attrs) : Prop := ∃ x, KMap.get? a (ascii "media-col") = some x ∧ ∀ m, x.2 ≠ .coll m

/-- The type of the input: the one that is given, that of the magic number it starts with, or TIFF for the parts of its magic numbers that are looked at. -/
def TypeTold (w : World) (o : Options) (inFile t : Bytes) : Prop :=
  TypeIs w o inFile t ∨
  (o.mimeType = none ∧ inFile ≠ ascii "-" ∧ t = ascii "image/tiff" ∧ ∃ data, w.files.read inFile = some data ∧ (ascii "MM" <+: data ∨ ascii "II*" <+: data))

end Spec

open Verif.Client.Spec

/-! ## Proofs -/

/-- A collection that was read from JSON is a map. -/
theorem value_sorted {tag : UInt8} {j : Json} {m : Attrs} (h : valueFromJson tag j = .ok (.coll m)) : KMap.Sorted m := by
  have key : ∀ (l : List (Bytes × Json)) (acc c : Attrs), KMap.Sorted acc → membersFromJson l acc = .ok c → KMap.Sorted c := by
    intro l
    induction l with
    | nil => intro acc c ha h; rw [membersFromJson] at h; cases h; exact ha
    | cons e l ih =>
      intro acc c ha h
      obtain ⟨k, x⟩ := e
      rw [membersFromJson] at h
      obtain ⟨a, _, h⟩ := Outcome.bind_eq_ok.mp h
      exact ih _ _ (KMap.sorted_assign ha _ _) h
  cases j with
  | null => rw [valueFromJson] at h; cases h
  | bool b => rw [valueFromJson] at h; cases h
  | num i => rw [valueFromJson] at h; cases h
  | str s => rw [valueFromJson] at h; cases h
  | arr l =>
    rw [valueFromJson] at h
    obtain ⟨_, _, h⟩ := Outcome.bind_eq_ok.mp h
    cases h
  | obj o =>
    rw [valueFromJson] at h
    split at h
    · unfold rangeFromJson at h
      obtain ⟨_, _, h⟩ := Outcome.bind_eq_ok.mp h
      obtain ⟨_, _, h⟩ := Outcome.bind_eq_ok.mp h
      cases h
    · split at h
      · unfold resFromJson at h
        obtain ⟨_, _, h⟩ := Outcome.bind_eq_ok.mp h
        obtain ⟨_, _, h⟩ := Outcome.bind_eq_ok.mp h
        obtain ⟨_, _, h⟩ := Outcome.bind_eq_ok.mp h
        cases h
      · split at h
        · cases h
        · split at h
          · obtain ⟨c, hc, h⟩ := Outcome.bind_eq_ok.mp h
            cases h
            exact key _ _ _ KMap.sorted_nil hc
          · cases h

theorem valueAt_sorted {tag : UInt8} : ∀ {l : List (Bytes × Json)} {m : Attrs}, valueAt tag l = .ok (.coll m) → KMap.Sorted m := by
  intro l
  induction l with
  | nil => intro m h; rw [valueAt] at h; cases h
  | cons e l ih =>
    intro m h
    obtain ⟨k, j⟩ := e
    rw [valueAt] at h
    split at h
    · exact value_sorted h
    · exact ih h

theorem attr_sorted {j : Json} {tag : UInt8} {m : Attrs} (h : attrFromJson j = .ok (tag, .coll m)) : KMap.Sorted m := by
  cases j with
  | obj o =>
    rw [attrFromJson] at h
    obtain ⟨t, _, h⟩ := Outcome.bind_eq_ok.mp h
    obtain ⟨v, hv, h⟩ := Outcome.bind_eq_ok.mp h
    cases h
    exact valueAt_sorted hv
  | _ => rw [attrFromJson] at h <;> cases h

/-- Every attribute is one of a list of collections that are maps. -/
def Maps (a : Attrs) : Prop := KMap.Sorted a ∧ ∀ n tag m, KMap.get? a n = some (tag, .coll m) → KMap.Sorted m

theorem maps_assign {a : Attrs} (h : Maps a) {k : Bytes} {x : Attr} (hx : ∀ tag m, x = (tag, .coll m) → KMap.Sorted m) : Maps (KMap.assign a k x) := by
  refine ⟨KMap.sorted_assign h.1 _ _, fun n tag m hg => ?_⟩
  rw [KMap.get?_assign h.1] at hg
  split at hg
  · injection hg with hg
    exact hx tag m hg
  · exact h.2 n tag m hg

theorem attrs_maps {j : Json} {a : Attrs} (h : attrsFromJson j = .ok a) : Maps a := by
  have key : ∀ (l : List (Bytes × Json)) (acc c : Attrs), Maps acc → membersFromJson l acc = .ok c → Maps c := by
    intro l
    induction l with
    | nil => intro acc c ha h; rw [membersFromJson] at h; cases h; exact ha
    | cons e l ih =>
      intro acc c ha h
      obtain ⟨k, x⟩ := e
      rw [membersFromJson] at h
      obtain ⟨y, hy, h⟩ := Outcome.bind_eq_ok.mp h
      refine ih _ _ (maps_assign ha fun tag m e => ?_) h
      subst e
      exact attr_sorted hy
  exact key _ _ _ ⟨KMap.sorted_nil, fun n tag m h => by cases h⟩ h

theorem maps_assignAll (l : Attrs) (hl : ∀ e ∈ l, ∀ tag m, e.2 = (tag, .coll m) → KMap.Sorted m) : ∀ {a : Attrs}, Maps a → Maps (assignAll a l) := by
  induction l with
  | nil => intro a h; exact h
  | cons e l ih =>
    intro a h
    exact ih (fun x hx => hl x (List.mem_cons_of_mem _ hx)) (maps_assign h (hl e List.mem_cons_self))

theorem maps_mem {a : Attrs} (h : Maps a) : ∀ e ∈ a, ∀ tag m, e.2 = (tag, .coll m) → KMap.Sorted m := by
  intro e he tag m hm
  refine h.2 e.1 tag m ?_
  rw [← hm]
  exact KMap.get?_of_mem h.1 he

theorem restored_maps {w : World} {p : Printer} {o : Options} {j j0 : PrintJob} (hj : createJob p = .ok j) (hr : restored w o j = .ok j0) :
    Maps j0.opAttrs ∧ Maps j0.jobAttrs := by
  have hnew := job_new hj
  have none : Maps ([] : Attrs) := ⟨KMap.sorted_nil, fun n tag m h => by cases h⟩
  have h1 : Maps j.opAttrs := by rw [hnew.2.2.1]; exact none
  have h2 : Maps j.jobAttrs := by rw [hnew.2.1]; exact none
  unfold restored at hr
  split at hr
  · cases hr; exact ⟨h1, h2⟩
  · obtain ⟨⟨a, b⟩, hab, hr⟩ := Outcome.bind_eq_ok.mp hr
    cases hr
    show Maps a ∧ Maps b
    unfold restoreSettings at hab
    split at hab
    · split at hab
      · unfold restoreFrom at hab
        obtain ⟨x, hx, hab⟩ := Outcome.bind_eq_ok.mp hab
        obtain ⟨y, hy, hab⟩ := Outcome.bind_eq_ok.mp hab
        cases hab
        exact ⟨maps_assignAll _ (maps_mem (attrs_maps hx)) h1, maps_assignAll _ (maps_mem (attrs_maps hy)) h2⟩
      · cases hab; exact ⟨h1, h2⟩
    · cases hab
    · cases hab; exact ⟨h1, h2⟩

theorem subKeys : ∀ s ∈ jobSettings, s.subKey = [] ∨ s.subKey = ascii "media-col" := by decide +kernel
theorem noSetting : ∀ s ∈ jobSettings, s.name ≠ ascii "media-col" := by decide +kernel

/-- **C75.** Whatever was saved for the printer: the job starts with attributes which are maps; and where the settings expect a collection there is none, or one; or
there is a media-col that is something else. -/
theorem C75_restored (w : World) (p : Printer) (o : Options) (j j0 : PrintJob) (hj : createJob p = .ok j) (hr : restored w o j = .ok j0) :
    KMap.Sorted j0.opAttrs ∧ KMap.Sorted j0.jobAttrs ∧ (CollectionsOk jobSettings j0.jobAttrs ∨ Foreign j0.jobAttrs) := by
  obtain ⟨h1, h2⟩ := restored_maps hj hr
  refine ⟨h1.1, h2.1, ?_⟩
  cases hg : KMap.get? j0.jobAttrs (ascii "media-col") with
  | none =>
    refine .inl ⟨h2.1, fun s hs hk a ha => ?_⟩
    rw [(subKeys s hs).resolve_left hk, hg] at ha
    cases ha
  | some x =>
    obtain ⟨tag, v⟩ := x
    by_cases hv : ∃ m, v = .coll m
    · obtain ⟨m, rfl⟩ := hv
      refine .inl ⟨h2.1, fun s hs hk a ha => ?_⟩
      rw [(subKeys s hs).resolve_left hk, hg] at ha
      cases ha
      exact ⟨tag, m, rfl, h2.2 _ _ _ hg⟩
    · exact .inr ⟨_, hg, fun m h => hv ⟨m, h⟩⟩

theorem foreign_sub {a : Attrs} (h : Foreign a) : subCollection a (ascii "media-col") = .throws .badVariant := by
  obtain ⟨⟨tag, v⟩, hx, hv⟩ := h
  unfold subCollection
  rw [hx]
  cases v with
  | coll m => exact absurd rfl (hv m)
  | _ => rfl

theorem foreign_isSet {a : Attrs} (h : Foreign a) {s : Setting} (hs : s.subKey = ascii "media-col") : s.isSet a = .throws .badVariant := by
  obtain ⟨⟨tag, v⟩, hx, hv⟩ := h
  unfold Setting.isSet
  rw [hs, if_pos (by decide +kernel), hx]
  cases v with
  | coll m => exact absurd rfl (hv m)
  | _ => rfl

/-- An operation on a setting leaves a foreign media-col as it is, or throws. -/
theorem foreign_apply {x : Op} (hx : x.setting ∈ jobSettings) {a a' : Attrs} (hf : Foreign a) (h : apply x a = .ok a') : Foreign a' := by
  have keep : ∀ s ∈ jobSettings, ascii "media-col" ≠ s.name := fun s hs h => noSetting s hs h.symm
  cases x with
  | set s v =>
    have hs : s ∈ jobSettings := hx
    rw [apply, Setting.set] at h
    by_cases hk : s.subKey = []
    · rw [if_neg (by simp [hk])] at h
      cases h
      obtain ⟨y, hy, hv⟩ := hf
      exact ⟨y, by rw [KMap.get?_assign_any, if_neg (keep s hs)]; exact hy, hv⟩
    · rw [if_pos hk, (subKeys s hs).resolve_left hk, foreign_sub hf] at h
      cases h
  | unset s =>
    have hs : s ∈ jobSettings := hx
    rw [apply, Setting.unset] at h
    by_cases hk : s.subKey = []
    · rw [if_neg (by simp [hk])] at h
      cases h
      obtain ⟨y, hy, hv⟩ := hf
      exact ⟨y, by rw [KMap.get?_erase, if_neg (keep s hs)]; exact hy, hv⟩
    · rw [if_pos hk, (subKeys s hs).resolve_left hk, foreign_sub hf] at h
      cases h

theorem foreign_applyAll {ops : List Op} (ho : ∀ o ∈ ops, o.setting ∈ jobSettings) : ∀ {a a' : Attrs}, Foreign a → applyAll ops a = .ok a' → Foreign a' := by
  induction ops with
  | nil => intro a a' hf h; cases h; exact hf
  | cons x ops ih =>
    intro a a' hf h
    rw [applyAll] at h
    obtain ⟨b, hb, h⟩ := Outcome.bind_eq_ok.mp h
    exact ih (fun y hy => ho y (List.mem_cons_of_mem _ hy)) (foreign_apply (ho x List.mem_cons_self) hf hb) h

theorem foreign_steps {pa : Attrs} {ss : List Step} {ds : List Part} (h : DoAll pa ss ds) : ∀ {j j' : PrintJob}, j.printerAttrs = pa → Foreign j.jobAttrs →
    (∀ d ∈ ds, ∀ o ∈ d.job, o.setting ∈ jobSettings) → runSteps ss j = .ok (some j') → Foreign j'.jobAttrs := by
  induction h with
  | nil => intro j j' _ hf _ hr; rw [runSteps] at hr; cases hr; exact hf
  | cons hd _hds ih =>
    rename_i s d ss ds
    intro j j' hp hf ho hr
    have hs := hd j hp
    rw [runSteps] at hr
    by_cases he : ∃ e, d.breaks e
    · obtain ⟨e, he⟩ := he
      rw [hs.1 e he] at hr
      cases hr
    have hs := hs.2 (fun e h => he ⟨e, h⟩)
    by_cases hb : d.bad
    · rw [hs.1 hb] at hr
      cases hr
    · rw [hs.2 hb] at hr
      obtain ⟨x, hx, hr⟩ := Outcome.bind_eq_ok.mp hr
      obtain ⟨a, ha, hx⟩ := Outcome.bind_eq_ok.mp hx
      obtain ⟨b, _, hx⟩ := Outcome.bind_eq_ok.mp hx
      cases hx
      exact ih (j := { j with jobAttrs := a, opAttrs := b }) hp (foreign_applyAll (ho d List.mem_cons_self) hf ha)
        (fun d' hd' => ho d' (List.mem_cons_of_mem _ hd')) hr

theorem foreign_finalize {pl : Pipelines} {input : Bytes} {pages : Int} {j j' : PrintJob} (hf : Foreign j.jobAttrs) : finalize pl input pages j ≠ .ok (none, j') := by
  intro h
  obtain ⟨r⟩ := finalize_run h
  obtain ⟨s1, _⟩ := jobAttrs_start r
  rw [← s1] at hf
  have hf4 : Foreign r.j4.jobAttrs := by
    have h4 := r.h4
    unfold takeMargins at h4
    split at h4
    · injection h4 with h4; rw [← h4]; exact hf
    · rw [Outcome.bind_eq_ok] at h4; obtain ⟨x, hx, h4⟩ := h4
      exfalso
      unfold getInt Setting.get at hx
      rw [foreign_isSet hf rfl] at hx
      cases hx
  have hf5 : Foreign r.j5.jobAttrs := by
    have h5 := r.h5
    unfold addMediaSize at h5
    rw [isSet_top rfl, Outcome.bind_ok] at h5
    split at h5
    · rw [Outcome.bind_eq_ok] at h5; obtain ⟨x, hx, h5⟩ := h5
      rw [Outcome.bind_eq_ok] at h5; obtain ⟨y, hy, h5⟩ := h5
      rw [foreign_sub hf4] at h5
      cases h5
    · injection h5 with h5; rw [← h5]; exact hf4
  have h12 := r.h12
  unfold takeMedia at h12
  have hend : KMap.get? j'.jobAttrs (ascii "media-col") = KMap.get? r.j5.jobAttrs (ascii "media-col") := jobAttrs_end r _ (by decide)
  have same : j'.jobAttrs = r.j11.jobAttrs := by
    obtain ⟨_, _, h12⟩ := Outcome.bind_eq_ok.mp h12
    obtain ⟨_, _, h12⟩ := Outcome.bind_eq_ok.mp h12
    obtain ⟨_, _, h12⟩ := Outcome.bind_eq_ok.mp h12
    injection h12 with h12; exact (congrArg PrintJob.jobAttrs h12).symm
  have hf11 : Foreign r.j11.jobAttrs := by
    obtain ⟨x, hx, hv⟩ := hf5
    exact ⟨x, by rw [← same, hend]; exact hx, hv⟩
  rw [foreign_isSet hf11 rfl] at h12
  cases h12

theorem foreign_run {env : Env} {p : Printer} {job : PrintJob} {input name : Bytes} {pages : Int} (hf : Foreign job.jobAttrs) :
    (runJob env p job input name pages).events = [] ∧ (runJob env p job input name pages).out ≠ .ok none := by
  have e : (tryRun env p job.copy input name pages).events = [] ∧ (tryRun env p job.copy input name pages).out ≠ .ok none := by
    unfold tryRun
    cases hi : intList p.attrs (ascii "operations-supported") with
    | ok ops =>
      rw [lift_bind_ok]
      cases hfin : finalize env.pipelines input pages job.copy with
      | ok r =>
        obtain ⟨x, j1⟩ := r
        rw [lift_bind_ok]
        cases x with
        | none => exact absurd hfin (foreign_finalize (show Foreign job.copy.jobAttrs from hf))
        | some x => exact ⟨rfl, fun h => by cases h⟩
      | throws x => exact ⟨rfl, fun h => by cases h⟩
      | ub => exact ⟨rfl, fun h => by cases h⟩
      | hang => exact ⟨rfl, fun h => by cases h⟩
    | throws x => exact ⟨rfl, fun h => by cases h⟩
    | ub => exact ⟨rfl, fun h => by cases h⟩
    | hang => exact ⟨rfl, fun h => by cases h⟩
  unfold runJob runJobWith catchAll
  split
  · exact ⟨e.1, fun h => by cases h⟩
  · exact e

/-- **C75.** When what was saved for the printer has a media-col that is no collection, nothing is ever sent or written, and print does not end with 0. -/
theorem C75_foreign (w : World) (p : Printer) (o : Options) (inFile : Bytes) (j j0 : PrintJob) (hj : createJob p = .ok j) (hr : restored w o j = .ok j0)
    (hf : Foreign j0.jobAttrs) :
    (printCommand w p o inFile).events = [] ∧ ∀ e, (printCommand w p o inFile).out = .ok e → e.code ≠ 0 := by
  cases hp : prepare w p o inFile with
  | ok r =>
    have e1 : printCommand w p o inFile = launch w p o inFile r := by
      unfold printCommand
      rw [hp, lift_bind_ok]
    rw [e1]
    cases r with
    | none =>
      refine ⟨rfl, fun e he hc => ?_⟩
      cases he; cases hc
    | some r =>
      obtain ⟨job, t⟩ := r
      have hjob : Foreign job.jobAttrs := by
        obtain ⟨v, hv, hd⟩ := steps_do (formats_typed hj) o
        obtain ⟨a0, b0, h0⟩ := restored_printer hr
        have hpa : (flags o j0).printerAttrs = p.attrs := by rw [h0]; exact (job_new hj).1
        unfold prepare at hp
        rw [hj, Outcome.bind_ok, hr, Outcome.bind_ok] at hp
        split at hp
        · cases hp
        · obtain ⟨x, hx, hp⟩ := Outcome.bind_eq_ok.mp hp
          cases x with
          | none => cases hp
          | some j' =>
            cases hp
            exact foreign_steps hd hpa hf (job_settings p o v) hx
      refine ⟨?_, fun e he hc => ?_⟩
      · unfold launch
        simp only
        cases hn : countPages w t inFile with
        | none => rfl
        | some n =>
          simp only
          unfold submit
          cases hs : saved w o job with
          | ok s =>
            obtain ⟨b, store⟩ := s
            simp only [lift_bind_ok]
            cases b with
            | false => rfl
            | true =>
              simp only [if_true]
              rw [bindPure]
              exact (foreign_run hjob).1
          | throws x => rfl
          | ub => rfl
          | hang => rfl
      · obtain ⟨n, store, _, _, hrun, _⟩ := launch_fine he hc
        exact (foreign_run hjob).2 hrun
  | throws x =>
    have e1 : printCommand w p o inFile = ⟨[], .throws x⟩ := by unfold printCommand; rw [hp]; rfl
    rw [e1]
    exact ⟨rfl, fun e he => by cases he⟩
  | ub =>
    have e1 : printCommand w p o inFile = ⟨[], .ub⟩ := by unfold printCommand; rw [hp]; rfl
    rw [e1]
    exact ⟨rfl, fun e he => by cases he⟩
  | hang =>
    have e1 : printCommand w p o inFile = ⟨[], .hang⟩ := by unfold printCommand; rw [hp]; rfl
    rw [e1]
    exact ⟨rfl, fun e he => by cases he⟩

theorem typeTold {w : World} {o : Options} {inFile t : Bytes} (h : inputType w o inFile = some t) : TypeTold w o inFile t := by
  unfold inputType at h
  cases hm : o.mimeType with
  | some t' => rw [hm] at h; cases h; exact .inl (.inl hm)
  | none =>
    simp only [hm] at h
    by_cases hf : inFile = ascii "-"
    · rw [if_neg (show ¬ inFile ≠ ascii "-" from fun h => h hf)] at h
      simp at h
    · simp only [if_pos hf] at h
      cases hd : w.files.read inFile with
      | none =>
        rw [hd, Option.getD_none, if_pos (by decide +kernel)] at h
        cases h
      | some data =>
        rw [hd, Option.getD_some] at h
        split at h
        · cases h
        · rename_i hne
          cases h
          rcases getMimeType_looked data with ⟨m, h3, h4⟩ | ⟨h3, _⟩
          · have all : ∀ x ∈ looked, (x ∈ magics ∧ mimeName x.1 = typeName x.1) ∨ (mimeName x.1 = ascii "image/tiff" ∧ (x.2 = ascii "MM" ∨ x.2 = ascii "II*")) := by decide +kernel
            rcases all _ h3 with ⟨h, e⟩ | ⟨e, h | h⟩
            · exact .inl (.inr ⟨hm, hf, data, _, hd, ⟨m, h, h4⟩, e⟩)
            · exact .inr ⟨hm, hf, e, data, hd, .inl (h ▸ h4)⟩
            · exact .inr ⟨hm, hf, e, data, hd, .inr (h ▸ h4)⟩
          · refine absurd ?_ hne
            rw [h3]
            split
            · exact .inl rfl
            · exact .inr rfl

theorem prepare_some {w : World} {p : Printer} {o : Options} {inFile t : Bytes} {job : PrintJob} (h : prepare w p o inFile = .ok (some (job, t))) :
    ∃ j j0, createJob p = .ok j ∧ restored w o j = .ok j0 ∧ inputType w o inFile = some t := by
  unfold prepare at h
  obtain ⟨j, hj, h⟩ := Outcome.bind_eq_ok.mp h
  obtain ⟨j0, h0, h⟩ := Outcome.bind_eq_ok.mp h
  refine ⟨j, j0, hj, h0, ?_⟩
  cases hi : inputType w o inFile with
  | none => rw [hi] at h; cases h
  | some t' =>
    rw [hi] at h
    simp only at h
    obtain ⟨x, _, h⟩ := Outcome.bind_eq_ok.mp h
    cases x with
    | none => cases h
    | some j' => cases h; rfl

/-- **C76.** The same whatever was saved for the printer, for every run of `print` that ends with 0: there were a job, and what was restored into it, and a type of the input;
and one request with the attributes of the job. Missing: printers that are files (`C76_file_partial`). -/
theorem C76_always_partial (w : World) (p : Printer) (o : Options) (inFile : Bytes) (hfile : ¬ IsFile p)
    (e : End) (he : (printCommand w p o inFile).out = .ok e) (hcode : e.code = 0) :
    ∃ (t : Bytes) (j j0 : PrintJob), createJob p = .ok j ∧ restored w o j = .ok j0 ∧ TypeTold w o inFile t ∧ ¬ Refused p o ∧ (∀ x, ¬ Breaks p o x) ∧
    ∃ (job : PrintJob) (pages : Option Value) (n : Int) (name : Bytes) (j1 : PrintJob) (m : Msg) (f : ConvertFun), PagesGive o pages ∧ Become (wanted o pages) j0.jobAttrs job.jobAttrs ∧
      Counted w inFile t n ∧ LastPart inFile name ∧ finalize w.env.pipelines t n job.copy = .ok (none, j1) ∧ m.jobAttrs = [j1.jobAttrs] ∧
      KMap.get? m.opAttrs (ascii "job-name") = some (0x42, .str name) ∧
      ((m.opOrStatus = 2 ∧ requests (printCommand w p o inFile).events = [m] ∧ SendsDocument (printCommand w p o inFile).events m) ∨
       ∃ d, m.opOrStatus = 5 ∧ d.opOrStatus = 6 ∧ d.jobAttrs = [[]] ∧ requests (printCommand w p o inFile).events = [m, d] ∧
        SendsDocument (printCommand w p o inFile).events d) ∧
      (∀ x ∈ sent o, ∀ v, x.2.2 = some v → KMap.get? j1.jobAttrs x.1 = some (x.2.1, v)) ∧
      (∀ x ∈ sentMembers o, ∀ v, x.2.2 = some v → member x.1 j1.jobAttrs = some (x.2.1, v)) ∧
      getConvertFun w.env.pipelines t j1.targetFormat = some f ∧ (w.env.convert f j1).2 = .ok none ∧
      document (printCommand w p o inFile).events = (w.env.convert f j1).1.flatten := by
  obtain ⟨job, t, hp⟩ : ∃ job t, prepare w p o inFile = .ok (some (job, t)) := by
    cases hp : prepare w p o inFile with
    | ok r =>
      cases r with
      | none =>
        have := print_none hp
        unfold FailsAtOnce at this
        rw [this] at he
        cases he; cases hcode
      | some r => exact ⟨r.1, r.2, rfl⟩
    | throws x => unfold printCommand at he; rw [hp] at he; cases he
    | ub => unfold printCommand at he; rw [hp] at he; cases he
    | hang => unfold printCommand at he; rw [hp] at he; cases he
  obtain ⟨j, j0, hj, hr, hi⟩ := prepare_some hp
  obtain ⟨h1, _, hc | hf⟩ := C75_restored w p o j j0 hj hr
  · exact ⟨t, j, j0, hj, hr, typeTold hi, (not_refused hj hr hc h1 he hcode).1, (not_refused hj hr hc h1 he hcode).2,
      sent_core w p o inFile t j j0 hj hr hc h1 hi hfile e he hcode⟩
  · exact absurd hcode ((C75_foreign w p o inFile j j0 hj hr hf).2 e he)

/-- **C76, printers that are files.** For these too, whatever was saved, every run of `print` that ends with 0: there were a job, what was restored into it, and a type of the input. No request is
sent; there is one file, named after the input and the format, with what the converter made of the job, which has the settings that were asked for. It is told that it was written exactly if the
conversion did not fail. -/
theorem C76_to_file (w : World) (p : Printer) (o : Options) (inFile : Bytes) (hfile : IsFile p)
    (e : End) (he : (printCommand w p o inFile).out = .ok e) (hcode : e.code = 0) :
    ∃ (t : Bytes) (j j0 : PrintJob), createJob p = .ok j ∧ restored w o j = .ok j0 ∧ TypeTold w o inFile t ∧ ¬ Refused p o ∧ (∀ x, ¬ Breaks p o x) ∧
    ∃ (job : PrintJob) (pages : Option Value) (n : Int) (name : Bytes) (j1 : PrintJob) (f : ConvertFun) (ending : Bytes),
      PagesGive o pages ∧ Become (wanted o pages) j0.jobAttrs job.jobAttrs ∧
      Counted w inFile t n ∧ LastPart inFile name ∧ finalize w.env.pipelines t n job.copy = .ok (none, j1) ∧
      (∀ x ∈ sent o, ∀ v, x.2.2 = some v → KMap.get? j1.jobAttrs x.1 = some (x.2.1, v)) ∧
      (∀ x ∈ sentMembers o, ∀ v, x.2.2 = some v → member x.1 j1.jobAttrs = some (x.2.1, v)) ∧
      getConvertFun w.env.pipelines t j1.targetFormat = some f ∧ (j1.targetFormat, ending) ∈ endings ∧
      requests (printCommand w p o inFile).events = [] ∧
      files (printCommand w p o inFile).events = [(debugName name ending, (w.env.convert f j1).1.flatten)] ∧
      (((w.env.convert f j1).2 = .ok none ∧ told (printCommand w p o inFile).events = [debugName name ending]) ∨
       ((∃ x, (w.env.convert f j1).2 = .ok (some x)) ∧ told (printCommand w p o inFile).events = [])) := by
  obtain ⟨job, t, hp⟩ : ∃ job t, prepare w p o inFile = .ok (some (job, t)) := by
    cases hp : prepare w p o inFile with
    | ok r =>
      cases r with
      | none =>
        have := print_none hp
        unfold FailsAtOnce at this
        rw [this] at he
        cases he; cases hcode
      | some r => exact ⟨r.1, r.2, rfl⟩
    | throws x => unfold printCommand at he; rw [hp] at he; cases he
    | ub => unfold printCommand at he; rw [hp] at he; cases he
    | hang => unfold printCommand at he; rw [hp] at he; cases he
  obtain ⟨j, j0, hj, hr, hi⟩ := prepare_some hp
  obtain ⟨hs, _, hc | hf⟩ := C75_restored w p o j j0 hj hr
  swap
  · exact absurd hcode ((C75_foreign w p o inFile j j0 hj hr hf).2 e he)
  have hnot := not_refused hj hr hc hs he hcode
  refine ⟨t, j, j0, hj, hr, typeTold hi, hnot.1, hnot.2, ?_⟩
  obtain ⟨pages, a, b, hp, hpages, ha, _⟩ := prepared hnot.2 hj hr hc hs hi hnot.1
  have hb := (job_applied hc ha).2
  generalize hjob : ({ flags o j0 with jobAttrs := a, opAttrs := b } : PrintJob) = job at hp
  have hb : Become (wanted o pages) j0.jobAttrs job.jobAttrs := by rw [← hjob]; exact hb
  have e1 : printCommand w p o inFile = launch w p o inFile (some (job, t)) := by
    unfold printCommand
    rw [hp, lift_bind_ok]
  rw [e1] at he ⊢
  obtain ⟨n, store, hcount, hsaved, hrun, _, hev⟩ := launch_fine he hcode
  rw [hev]
  obtain ⟨j1, f, ending, hf, hg, hx, hreq, hfiles, htold⟩ := C89_made _ p job t (fileName inFile) n hfile hrun
  refine ⟨job, pages, n, fileName inFile, j1, f, ending, hpages, hb, counted hcount, lastPart inFile, hf, fun x hx v hv => ?_, fun x hx v hv => ?_, hg, hx, hreq, hfiles, htold⟩
  · exact asked_sent hb hf x hx v hv
  · exact asked_members hb hf x hx v hv

/-! Cases that meet the hypotheses. -/

/-- The printer of the example above, with a uuid. -/
def savedPrinter : Printer := { rasterPrinter with attrs := KMap.assign rasterPrinter.attrs (ascii "printer-uuid") (0x45, .str (ascii "u")) }

/-- A file in which media-col is a text. -/
def foreignStore : Store := fun u => if u = ascii "u" then
    some (.obj [(ascii "job-attrs", .obj [(ascii "media-col", .obj [(ascii "tag", .num 0x44), (ascii "value", .str (ascii "x"))])])]) else none

/-- A file in which media-col has no members. -/
def emptyStore : Store := fun u => if u = ascii "u" then
    some (.obj [(ascii "job-attrs", .obj [(ascii "media-col", .obj [(ascii "tag", .num 0x34), (ascii "value", .obj [])])])]) else none

/-- Nothing is sent, and the exit code is 1, for a media-col that is a text. -/
example : (∃ j j0, createJob savedPrinter = .ok j ∧ restored { world with env := exampleEnv, store := foreignStore } rasterOptions j = .ok j0 ∧ Foreign j0.jobAttrs) ∧
    (match (printCommand { world with env := exampleEnv, store := foreignStore } savedPrinter {} (ascii "a.pdf")).out with
      | .ok e => e.code
      | _ => 7) = 1 := by
  refine ⟨⟨_, _, rfl, rfl, (0x44, .str (ascii "x")), by decide +kernel, fun m h => by cases h⟩, by decide +kernel⟩

/-- For one without members the job is printed. -/
example : ¬ IsFile savedPrinter ∧ (match (printCommand { world with env := exampleEnv, store := emptyStore } savedPrinter rasterOptions (ascii "a.pdf")).out with
      | .ok e => e.code
      | _ => 7) = 0 := ⟨by unfold IsFile; decide +kernel, by decide +kernel⟩

/-- A printer that is a file, printed to. -/
example : IsFile { rasterPrinter with addr := ascii "file:///tmp/x" } ∧
    (match (printCommand { world with env := exampleEnv } { rasterPrinter with addr := ascii "file:///tmp/x" } rasterOptions (ascii "a.pdf")).out with
      | .ok e => e.code
      | _ => 7) = 0 := ⟨by unfold IsFile; decide +kernel, by decide +kernel⟩

end Verif.Client
