import Verif.Client.Paths
import Verif.Client.SavedProps

/-!
# Printing with the files of saved settings: property C77

`printCommand` keeps saved settings by the uuid of the printer. Here the same is done with files (`Verif.Client.Paths`), and the two are shown to agree as long as
the uuids are names that a file can have.
-/

namespace Verif.Client

open Ipp Ipp.Spec Printer Job

/-! ## Model -/

/-- ippclient.cpp 381-384 -/
def restoredAt (user : Option Bytes) (parse : Bytes → Json) (o : Options) (j : PrintJob) (t : Tree) : Outcome PrintJob :=
  if o.save then .ok j
  else do
    let (op, job) ← restoreAt user parse j.printerAttrs j.opAttrs j.jobAttrs t
    return { j with opAttrs := op, jobAttrs := job }

/-- ippclient.cpp 380-487 -/
def prepareAt (w : World) (user : Option Bytes) (parse : Bytes → Json) (p : Printer) (o : Options) (inFile : Bytes) (t : Tree) : Outcome (Option (PrintJob × Bytes)) := do
  let j ← createJob p
  let j ← restoredAt user parse o j t
  match inputType w o inFile with
  | none => return none
  | some ty =>
    match ← runSteps (printSteps p o) (flags o j) with
    | none => return none
    | some j' => return some (j', ty)

/-- ippclient.cpp 507-514; none: an exception of the file system. -/
def savedTo (user : Option Bytes) (dump : Json → Bytes) (o : Options) (j : PrintJob) (t : Tree) : Outcome (Option (Bool × Tree)) :=
  if o.save then saveTo user dump j.printerAttrs j.opAttrs j.jobAttrs t else .ok (some (true, t))

/-- ippclient.cpp 507-528: the exit code and the files; none: ended by an exception of the file system. -/
def submitOn (w : World) (user : Option Bytes) (dump : Json → Bytes) (p : Printer) (o : Options) (inFile : Bytes) (t : Tree) (j : PrintJob) (ty : Bytes) (pages : Int) :
    Act (Option (Nat × Tree)) := do
  match ← Act.lift (savedTo user dump o j t) with
  | none => return none
  | some (goOn, t') =>
    if goOn then do
      let e ← runJob { w.env with reqId := nextId w p, showJobId := o.printJobId } p j ty (fileName inFile) pages
      return some (if e.isSome then 1 else 0, t')
    else return some (1, t')

/-- ippclient.cpp 489-528 -/
def launchOn (w : World) (user : Option Bytes) (dump : Json → Bytes) (p : Printer) (o : Options) (inFile : Bytes) (t : Tree) :
    Option (PrintJob × Bytes) → Act (Option (Nat × Tree))
  | none => pure (some (1, t))
  | some (j, ty) =>
    match countPages w ty inFile with
    | none => pure (some (1, t))
    | some pages => submitOn w user dump p o inFile t j ty pages

/-- `print`, ippclient.cpp 378-529, with the files of saved settings. Settings in `w` are not looked at. -/
def printOn (w : World) (user : Option Bytes) (dump : Json → Bytes) (parse : Bytes → Json) (p : Printer) (o : Options) (inFile : Bytes) (t : Tree) :
    Act (Option (Nat × Tree)) := do
  let r ← Act.lift (prepareAt w user parse p o inFile t)
  launchOn w user dump p o inFile t r

/-! ## Specification -/

namespace Spec

/-- The files are in order, and files can be written in the directory of the settings; there are no directories in it. -/
structure Usable (u : Bytes) (t : Tree) : Prop where
  sound : Sound t
  free : ∀ n, t.dir (settingsPlace u ++ [n]) = false
  writable : ∀ n, t.writable (settingsPlace u ++ [n]) = true

/-- The same is sent and written, and the same comes of it; what is in the files is what is in the store. Or the directory of the settings was not there and can not
be made, and the program ended with an exception. -/
def Agrees (u : Bytes) (parse : Bytes → Json) (before : Tree) (files : Act (Option (Nat × Tree))) (store : Act End) : Prop :=
  files.out = .ok none ∧ files.events = [] ∧ ¬ Ready before u ∨
  files.events = store.events ∧
    ((∃ c t e, files.out = .ok (some (c, t)) ∧ store.out = .ok e ∧ e.code = c ∧ e.store = heldBy u parse t ∧ Usable u t) ∨
      (∃ x, files.out = .throws x ∧ store.out = .throws x) ∨ (files.out = .ub ∧ store.out = .ub) ∨ (files.out = .hang ∧ store.out = .hang))

/-- json11 reads what it wrote for the settings that this use saves. -/
def ReadsBack (dump : Json → Bytes) (parse : Bytes → Json) (r : Run) : Prop :=
  ∀ j ty, r.o.save = true → prepare r.w r.p r.o r.inFile = .ok (some (j, ty)) →
    parse (dump (.obj (settingsToJson j.opAttrs j.jobAttrs))) = .obj (settingsToJson j.opAttrs j.jobAttrs)

/-- The use ends with this code with these files before, and leaves those. -/
def Run.EndsOn (u : Bytes) (dump : Json → Bytes) (parse : Bytes → Json) (r : Run) (before : Tree) (code : Nat) (after : Tree) : Prop :=
  (printOn r.w (some u) dump parse r.p r.o r.inFile before).out = .ok (some (code, after))

/-- Uses one after the other, with the files before the first and after the last. -/
inductive FileHistory (u : Bytes) (dump : Json → Bytes) (parse : Bytes → Json) : Tree → List Run → Tree → Prop where
  | nil (t : Tree) : FileHistory u dump parse t [] t
  | cons {t t1 t2 : Tree} {r : Run} {l : List Run} {code : Nat} (h : r.EndsOn u dump parse t code t1) (ht : FileHistory u dump parse t1 l t2) :
      FileHistory u dump parse t (r :: l) t2

end Spec

open Verif.Client.Spec

/-! ## Saving keeps the files in order -/

theorem usable_saved {u n : Bytes} (hu : FileName u) (hn : FileName n) {dump : Json → Bytes} {pa op job : Attrs} (hp : HasUuid pa n) {t t' : Tree} {b : Bool}
    (ht : Usable u t) (h : saveTo (some u) dump pa op job t = .ok (some (b, t'))) : Usable u t' := by
  obtain ⟨tag, hp⟩ := hp
  unfold saveTo at h
  rw [hp] at h
  simp only [settingsDir_some, Outcome.bind_ok] at h
  cases hm : t.makeDirs [] (components (dirPath u)) with
  | none => rw [hm] at h; cases h
  | some t1 =>
    rw [hm] at h
    simp only [append_name hn] at h
    have hready := ready_made hu hm
    have hfind := find_name hu hn hready
    obtain ⟨w1, w2, w3, w4⟩ := write_at (data := dump (.obj (settingsToJson op job))) hfind
    cases h
    obtain ⟨k1, k2, k3⟩ := makeDirs_keeps _ _ _ hm
    have hdirs : ∀ pl, t1.dir pl = true → t.dir pl = true ∨ (∃ k, k ≤ 4 ∧ pl = (settingsPlace u).take k) ∧ t.file pl = none := by
      intro pl hpl
      rw [components_dir hu] at hm
      rcases makeDirs_only _ _ _ hm pl hpl with g | ⟨⟨k, g1, g2, g3⟩, g4⟩
      · exact .inl g
      · obtain ⟨j, rfl⟩ : ∃ j, k = j + 1 := ⟨k - 1, by omega⟩
        rw [fold_place hu j (by simp [settingsPlace] at g2; omega)] at g3
        exact .inr ⟨⟨j, by simp [settingsPlace] at g2; omega, g3⟩, g4⟩
    have hfree : ∀ m, t1.dir (settingsPlace u ++ [m]) = false := by
      intro m
      cases hd : t1.dir (settingsPlace u ++ [m]) with
      | false => rfl
      | true =>
        rcases hdirs _ hd with g | ⟨⟨k, g1, g2⟩, _⟩
        · rw [ht.free m] at g; cases g
        · have := congrArg List.length g2
          simp [settingsPlace] at this
          omega
    refine ⟨⟨?_, ?_, ?_⟩, fun m => by rw [w3]; exact hfree m, fun m => by rw [w4, k2]; exact ht.writable m⟩
    · rw [w3]; exact k3 _ ht.sound.root
    · intro pl k hpl hk
      rw [w3]
      by_cases hx : pl = settingsPlace u ++ [n]
      · subst hx
        have hk4 : k ≤ 4 := by simp [settingsPlace] at hk; omega
        rw [List.take_append_of_le_length (by simp [settingsPlace]; omega)]
        exact hready k hk4
      · rw [w1 pl hx, k1, w3] at hpl
        rcases hpl with g | g
        · exact k3 _ (ht.sound.parents pl k (.inl g) hk)
        · rcases hdirs pl g with g | ⟨⟨j, hj, rfl⟩, _⟩
          · exact k3 _ (ht.sound.parents pl k (.inr g) hk)
          · rw [List.take_take]
            have : min k j ≤ 4 := by omega
            exact hready _ this
    · intro pl hpl
      rw [w3]
      by_cases hx : pl = settingsPlace u ++ [n]
      · subst hx; exact hfree n
      · rw [w1 pl hx, k1] at hpl
        cases hd : t1.dir pl with
        | false => rfl
        | true =>
          rcases hdirs pl hd with g | ⟨_, g⟩
          · rw [ht.sound.files pl hpl] at g; cases g
          · exact absurd g hpl

/-! ## Both ways of keeping settings agree -/

theorem restoredAt_eq {u : Bytes} (hu : FileName u) {parse : Bytes → Json} {w : World} {o : Options} {j : PrintJob} {t : Tree} (ht : Sound t)
    (hn : ∀ n, HasUuid j.printerAttrs n → FileName n) : restoredAt (some u) parse o j t = restored { w with store := heldBy u parse t } o j := by
  unfold restoredAt restored
  split
  · rfl
  · have : restoreAt (some u) parse j.printerAttrs j.opAttrs j.jobAttrs t = restoreSettings j.printerAttrs j.opAttrs j.jobAttrs (heldBy u parse t) := by
      cases hk : KMap.get? j.printerAttrs (ascii "printer-uuid") with
      | none => unfold restoreAt restoreSettings; rw [hk]
      | some a =>
        obtain ⟨tag, v⟩ := a
        by_cases hs : ∃ n, v = .str n
        · obtain ⟨n, rfl⟩ := hs
          exact C104_restores_partial u n hu (hn n ⟨tag, hk⟩) parse _ _ _ ⟨tag, hk⟩ t ht
        · unfold restoreAt restoreSettings
          rw [hk]
          cases v <;> first | rfl | exact absurd ⟨_, rfl⟩ hs
    rw [this]

theorem prepareAt_eq {u : Bytes} (hu : FileName u) {parse : Bytes → Json} {w : World} {p : Printer} {o : Options} {inFile : Bytes} {t : Tree} (ht : Sound t)
    (hn : ∀ n, HasUuid p.attrs n → FileName n) : prepareAt w (some u) parse p o inFile t = prepare { w with store := heldBy u parse t } p o inFile := by
  unfold prepareAt prepare
  cases hj : createJob p with
  | ok j =>
    simp only [Outcome.bind_ok]
    rw [restoredAt_eq hu ht (w := w) (by rw [(job_new hj).1]; exact hn)]
    rfl
  | throws x => rfl
  | ub => rfl
  | hang => rfl

theorem savedTo_cases {u : Bytes} (hu : FileName u) {dump : Json → Bytes} {parse : Bytes → Json} {w : World} {o : Options} {j : PrintJob} {t : Tree}
    (hd : o.save = true → parse (dump (.obj (settingsToJson j.opAttrs j.jobAttrs))) = .obj (settingsToJson j.opAttrs j.jobAttrs)) (ht : Usable u t) (hn : ∀ n, HasUuid j.printerAttrs n → FileName n) :
    savedTo (some u) dump o j t = .ok none ∧ ¬ Ready t u ∨
    (∃ b t', savedTo (some u) dump o j t = .ok (some (b, t')) ∧ saved { w with store := heldBy u parse t } o j = .ok (b, heldBy u parse t') ∧ Usable u t' ∧
      (b = false → t' = t)) ∨
    (∃ x, savedTo (some u) dump o j t = .throws x ∧ saved { w with store := heldBy u parse t } o j = .throws x) := by
  unfold savedTo saved
  split
  · rename_i hsv
    cases hk : KMap.get? j.printerAttrs (ascii "printer-uuid") with
    | none =>
      right; left
      refine ⟨false, t, ?_, ?_, ht, fun _ => rfl⟩
      · unfold saveTo; rw [hk]
      · unfold saveSettings; rw [hk]
    | some a =>
      obtain ⟨tag, v⟩ := a
      by_cases hs : ∃ n, v = .str n
      · obtain ⟨n, rfl⟩ := hs
        have hf := hn n ⟨tag, hk⟩
        rcases C104_saves_partial u n hu hf dump j.printerAttrs j.opAttrs j.jobAttrs ⟨tag, hk⟩ t _ rfl with g | ⟨t', g, _⟩
        · refine .inl ⟨g, fun hr => ?_⟩
          unfold saveTo at g
          rw [hk] at g
          simp only [settingsDir_some, Outcome.bind_ok, makeDirs_ready hu hr] at g
          cases g
        · exact .inr (.inl ⟨true, t', g, C104_stores_partial u n hu hf dump parse _ _ _ (hd hsv) ⟨tag, hk⟩ t t' true (ht.free n) (ht.writable n) g,
            usable_saved hu hf ⟨tag, hk⟩ ht g, fun h => by cases h⟩)
      · right; right
        refine ⟨.badVariant, ?_, ?_⟩
        · unfold saveTo
          rw [hk]
          cases v <;> first | rfl | exact absurd ⟨_, rfl⟩ hs
        · unfold saveSettings
          rw [hk]
          cases v <;> first | rfl | exact absurd ⟨_, rfl⟩ hs
  · exact .inr (.inl ⟨true, t, rfl, rfl, ht, fun h => by cases h⟩)

theorem prepare_store {o : Options} (hs : o.save = true) (w : World) (s : Store) {p : Printer} {inFile : Bytes} :
    prepare w p o inFile = prepare { w with store := s } p o inFile := by
  unfold prepare restored
  simp only [if_pos hs]
  rfl

/-- **C77.** Printing with files is printing with settings by uuid, if the uuids are names that a file can have: the same is sent and written, the program ends in the
same way, and the files hold what the store does; but the file system may end it with an exception before anything is sent. -/
theorem C77_agrees_partial (u : Bytes) (hu : FileName u) (dump : Json → Bytes) (parse : Bytes → Json) (w : World) (p : Printer)
    (hn : ∀ n, Uuid p n → FileName n) (o : Options) (inFile : Bytes) (hd : ReadsBack dump parse ⟨w, p, o, inFile⟩) (t : Tree) (ht : Usable u t) :
    Agrees u parse t (printOn w (some u) dump parse p o inFile t) (printCommand { w with store := heldBy u parse t } p o inFile) := by
  unfold printOn printCommand
  rw [prepareAt_eq hu ht.sound hn]
  cases hp : prepare { w with store := heldBy u parse t } p o inFile with
  | throws x => exact .inr ⟨rfl, .inr (.inl ⟨x, rfl, rfl⟩)⟩
  | ub => exact .inr ⟨rfl, .inr (.inr (.inl ⟨rfl, rfl⟩))⟩
  | hang => exact .inr ⟨rfl, .inr (.inr (.inr ⟨rfl, rfl⟩))⟩
  | ok r =>
    rw [lift_bind_ok, lift_bind_ok]
    cases r with
    | none => exact .inr ⟨rfl, .inl ⟨1, t, _, rfl, rfl, rfl, rfl, ht⟩⟩
    | some x =>
      obtain ⟨j, ty⟩ := x
      show Agrees u parse t (match countPages w ty inFile with | none => _ | some pages => _) (match countPages w ty inFile with | none => _ | some pages => _)
      cases hc : countPages w ty inFile with
      | none => exact .inr ⟨rfl, .inl ⟨1, t, _, rfl, rfl, rfl, rfl, ht⟩⟩
      | some pages =>
        simp only
        unfold submitOn submit
        rcases savedTo_cases hu (dump := dump) (parse := parse) (w := w) (o := o) (j := j) (fun hs => hd j ty hs (by rw [prepare_store hs w (heldBy u parse t)]; exact hp)) ht (by rw [prepare_printer hp]; exact hn) with ⟨g, hr⟩ | ⟨b, t', g1, g2, g3, g4⟩ | ⟨x, g1, g2⟩
        · rw [g, lift_bind_ok]
          exact .inl ⟨rfl, rfl, hr⟩
        · rw [g1, g2, lift_bind_ok, lift_bind_ok]
          cases b with
          | false =>
            rw [g4 rfl]
            exact .inr ⟨rfl, .inl ⟨1, t, _, rfl, rfl, rfl, rfl, ht⟩⟩
          | true =>
            simp only [if_true]
            right
            show (Act.bind (runJob _ p j ty (fileName inFile) pages) _).events = (Act.bind (runJob _ p j ty (fileName inFile) pages) _).events ∧ _
            have hid : nextId { w with store := heldBy u parse t } p = nextId w p := rfl
            rw [hid]
            generalize hj : runJob { w.env with reqId := nextId w p, showJobId := o.printJobId } p j ty (fileName inFile) pages = act
            obtain ⟨ev, out⟩ := act
            cases out with
            | ok e =>
              refine ⟨rfl, .inl ⟨_, t', _, rfl, rfl, ?_, rfl, g3⟩⟩
              cases e <;> rfl
            | throws x => exact ⟨rfl, .inr (.inl ⟨x, rfl, rfl⟩)⟩
            | ub => exact ⟨rfl, .inr (.inr (.inl ⟨rfl, rfl⟩))⟩
            | hang => exact ⟨rfl, .inr (.inr (.inr ⟨rfl, rfl⟩))⟩
        · rw [g1, g2]
          exact .inr ⟨rfl, .inr (.inl ⟨x, rfl, rfl⟩)⟩

theorem history_on {u : Bytes} (hu : FileName u) {dump : Json → Bytes} {parse : Bytes → Json} {t t' : Tree} {l : List Run} (hd : ∀ r ∈ l, ReadsBack dump parse r)
    (h : FileHistory u dump parse t l t') (ht : Usable u t) (hn : ∀ r ∈ l, ∀ n, Uuid r.p n → FileName n) :
    History (heldBy u parse t) l (heldBy u parse t') ∧ Usable u t' := by
  induction h with
  | nil t => exact ⟨.nil _, ht⟩
  | @cons t t1 t2 r l code h _ ih =>
    have ha := C77_agrees_partial u hu dump parse r.w r.p (hn r (List.mem_cons_self ..)) r.o r.inFile (hd r (List.mem_cons_self ..)) t ht
    unfold Run.EndsOn at h
    rcases ha with ⟨g, _⟩ | ⟨_, ⟨c, tt, e, g1, g2, g3, g4, g5⟩ | ⟨x, g, _⟩ | ⟨g, _⟩ | ⟨g, _⟩⟩
    · rw [h] at g; cases g
    · rw [h] at g1
      cases g1
      obtain ⟨i1, i2⟩ := ih (fun r hr => hd r (List.mem_cons_of_mem _ hr)) g5 (fun r hr => hn r (List.mem_cons_of_mem _ hr))
      exact ⟨.cons ⟨e, g2, g3, g4⟩ i1, i2⟩
    · rw [h] at g; cases g
    · rw [h] at g; cases g
    · rw [h] at g; cases g

theorem ends_on {u : Bytes} (hu : FileName u) {dump : Json → Bytes} {parse : Bytes → Json} {t t' : Tree} {r : Run} {code : Nat} (hd : ReadsBack dump parse r)
    (h : r.EndsOn u dump parse t code t') (ht : Usable u t) (hn : ∀ n, Uuid r.p n → FileName n) :
    r.Ends (heldBy u parse t) code (heldBy u parse t') ∧ Usable u t' := by
  have ha := C77_agrees_partial u hu dump parse r.w r.p hn r.o r.inFile hd t ht
  unfold Run.EndsOn at h
  rcases ha with ⟨g, _⟩ | ⟨_, ⟨c, tt, e, g1, g2, g3, g4, g5⟩ | ⟨x, g, _⟩ | ⟨g, _⟩ | ⟨g, _⟩⟩
  · rw [h] at g; cases g
  · rw [h] at g1
    cases g1
    exact ⟨⟨e, g2, g3, g4⟩, g5⟩
  · rw [h] at g; cases g
  · rw [h] at g; cases g
  · rw [h] at g; cases g

/-- **C77 with files.** A use of `print --save` that ends with 0 leaves in a file what its options ask for; whatever is printed afterwards without `--save`, or to other
printers, a later job for a printer with the same uuid starts from these settings. Missing: uuids that are no names of files (C104). -/
theorem C77_files_partial (u : Bytes) (hu : FileName u) (dump : Json → Bytes) (parse : Bytes → Json) (t0 t1 t2 : Tree)
    (hok : Usable u t0) (r : Run) (later : List Run) (hd : ∀ x ∈ r :: later, ReadsBack dump parse x) (hn : ∀ x ∈ r :: later, ∀ n, Uuid x.p n → FileName n) (id : Bytes) (hid : Uuid r.p id)
    (hsave : r.o.save = true) (hr : r.EndsOn u dump parse t0 0 t1) (hl : FileHistory u dump parse t1 later t2)
    (hother : ∀ x ∈ later, x.o.save = false ∨ ¬ Uuid x.p id)
    (p : Printer) (hp : Uuid p id) (o : Options) (ho : o.save = false) (j : PrintJob) (hj : createJob p = .ok j) :
    ∃ pages j0, PagesGive r.o pages ∧ restoredAt (some u) parse o j t2 = .ok j0 ∧ CollectionsOk jobSettings j0.jobAttrs ∧ KMap.Sorted j0.opAttrs ∧
      Become (wanted r.o pages) [] j0.jobAttrs ∧
      ∀ n, KMap.get? j0.opAttrs n = if n = ascii "document-format" then r.o.format.map (fun f => (0x49, .str f)) else none := by
  obtain ⟨hends, k1⟩ := ends_on hu (hd r (List.mem_cons_self ..)) hr hok (hn r (List.mem_cons_self ..))
  obtain ⟨h2, k2⟩ := history_on hu (fun x hx => hd x (List.mem_cons_of_mem _ hx)) hl k1 (fun x hx => hn x (List.mem_cons_of_mem _ hx))
  have hpn : ∀ n, HasUuid j.printerAttrs n → FileName n := by
    rw [(job_new hj).1]
    rintro n ⟨tag, hk⟩
    obtain ⟨tag', hk'⟩ := hp
    rw [hk'] at hk
    cases hk
    exact hn r (List.mem_cons_self ..) id hid
  have := C77_restored _ _ _ r later id hid hsave hends h2 hother { r.w with store := heldBy u parse t2 } rfl p hp o ho j hj
  rw [← restoredAt_eq hu k2.sound (w := r.w) hpn] at this
  exact this

/-- **C77 with files.** The next job has at each place what its own options ask for, else what the saved ones asked for, else nothing. Missing: as for
`C77_files_partial`. -/
theorem C77_files_next_partial (u : Bytes) (hu : FileName u) (dump : Json → Bytes) (parse : Bytes → Json) (t0 t1 t2 : Tree)
    (hok : Usable u t0) (r : Run) (later : List Run) (hd : ∀ x ∈ r :: later, ReadsBack dump parse x) (hn : ∀ x ∈ r :: later, ∀ n, Uuid x.p n → FileName n)
    (id : Bytes) (hid : Uuid r.p id)
    (hsave : r.o.save = true) (hr : r.EndsOn u dump parse t0 0 t1) (hl : FileHistory u dump parse t1 later t2)
    (hother : ∀ x ∈ later, x.o.save = false ∨ ¬ Uuid x.p id)
    (w : World) (p : Printer) (hp : Uuid p id) (o : Options) (ho : o.save = false) (j : PrintJob) (hj : createJob p = .ok j)
    (inFile ty : Bytes) (hty : TypeIs w o inFile ty) (hr' : ¬ Refused p o) (hbr : ∀ e, ¬ Breaks p o e) :
    ∃ job saved pages, prepareAt w (some u) parse p o inFile t2 = .ok (some (job, ty)) ∧ PagesGive r.o saved ∧ PagesGive o pages ∧
      (∀ x ∈ (wanted o pages).zip (wanted r.o saved), x.1.1 = x.2.1 ∧ x.1.2.1 = x.2.2.1 ∧
        at_ job.jobAttrs x.1.1 = (x.1.2.2.or x.2.2.2).map (fun v => (x.1.2.1, v))) ∧
      (∀ q : Place, (∀ x ∈ wanted o pages, x.1 ≠ q) → (q.1 = [] ∧ q.2 ≠ ascii "media-col" ∨ q.1 = ascii "media-col") → at_ job.jobAttrs q = none) ∧
      ∀ n, KMap.get? job.opAttrs n = if n = ascii "document-format" then (o.format.or r.o.format).map (fun f => (0x49, .str f)) else none := by
  obtain ⟨hends, k1⟩ := ends_on hu (hd r (List.mem_cons_self ..)) hr hok (hn r (List.mem_cons_self ..))
  obtain ⟨h2, k2⟩ := history_on hu (fun x hx => hd x (List.mem_cons_of_mem _ hx)) hl k1 (fun x hx => hn x (List.mem_cons_of_mem _ hx))
  have hpn : ∀ n, HasUuid p.attrs n → FileName n := by
    rintro n ⟨tag, hk⟩
    obtain ⟨tag', hk'⟩ := hp
    rw [hk'] at hk
    cases hk
    exact hn r (List.mem_cons_self ..) id hid
  have := C77_next _ _ _ r later id hid hsave hends h2 hother { w with store := heldBy u parse t2 } rfl p hp o ho j hj inFile ty hty hr' hbr
  rw [← prepareAt_eq hu k2.sound hpn] at this
  exact this

/-! A case that meets the hypotheses. -/

/-- What `savingRun` saves. -/
def savedJson : Json :=
  match prepare savingRun.w savingRun.p savingRun.o savingRun.inFile with
  | .ok (some (j, _)) => .obj (settingsToJson j.opAttrs j.jobAttrs)
  | _ => .null

/-- The uses of the example for `C77_restored`, with files. The texts of JSON are short here: there is one only. -/
example : FileName (ascii "u") ∧ Usable (ascii "u") homeTree ∧ (∀ x ∈ [savingRun, laterRun], ReadsBack (fun _ => ascii "{}") (fun _ => savedJson) x) ∧
    (∀ x ∈ [savingRun, laterRun], ∀ n, Uuid x.p n → FileName n) ∧
    ∃ t1 t2, savingRun.EndsOn (ascii "u") (fun _ => ascii "{}") (fun _ => savedJson) homeTree 0 t1 ∧
      FileHistory (ascii "u") (fun _ => ascii "{}") (fun _ => savedJson) t1 [laterRun] t2 := by
  refine ⟨by unfold FileName; decide +kernel, ⟨homeTree_sound, fun n => ?_, fun n => ?_⟩, ?_, ?_, ?_⟩
  · simp [homeTree, settingsPlace]
  · have e : settingsPlace (ascii "u") ++ [n] = [ascii "home", ascii "u"] ++ [ascii ".ppm2pwg", ascii "saved_settings", n] := rfl
    simp only [homeTree]
    rw [e]
    exact List.isPrefixOf_iff_prefix.mpr (List.prefix_append ..)
  · intro x hx j ty hs h
    simp only [List.mem_cons, List.not_mem_nil, or_false] at hx
    rcases hx with rfl | rfl
    · show savedJson = _
      unfold savedJson
      rw [h]
    · cases hs
  · rintro x hx n ⟨tag, hk⟩
    simp only [List.mem_cons, List.not_mem_nil, or_false] at hx
    have : KMap.get? uuidPrinter.attrs (ascii "printer-uuid") = some (tag, .str n) := by rcases hx with rfl | rfl <;> exact hk
    rw [show KMap.get? uuidPrinter.attrs (ascii "printer-uuid") = some (0x45, .str (ascii "urn:uuid:1")) from by decide +kernel] at this
    cases this
    unfold FileName
    decide +kernel
  · have h : (match (printOn savingRun.w (some (ascii "u")) (fun _ => ascii "{}") (fun _ => savedJson) savingRun.p savingRun.o savingRun.inFile homeTree).out with
        | .ok (some (c, t1)) => decide (c = 0) &&
          (match (printOn laterRun.w (some (ascii "u")) (fun _ => ascii "{}") (fun _ => savedJson) laterRun.p laterRun.o laterRun.inFile t1).out with
            | .ok (some _) => true
            | _ => false)
        | _ => false) = true := by decide +kernel
    cases h1 : (printOn savingRun.w (some (ascii "u")) (fun _ => ascii "{}") (fun _ => savedJson) savingRun.p savingRun.o savingRun.inFile homeTree).out with
    | ok x =>
      rw [h1] at h
      cases x with
      | none => cases h
      | some x =>
        obtain ⟨c, t1⟩ := x
        simp only [Bool.and_eq_true, decide_eq_true_eq] at h
        obtain ⟨rfl, h⟩ := h
        cases h2 : (printOn laterRun.w (some (ascii "u")) (fun _ => ascii "{}") (fun _ => savedJson) laterRun.p laterRun.o laterRun.inFile t1).out with
        | ok y =>
          rw [h2] at h
          cases y with
          | none => cases h
          | some y => exact ⟨t1, y.2, h1, .cons (code := y.1) h2 (.nil _)⟩
        | throws x => rw [h2] at h; cases h
        | ub => rw [h2] at h; cases h
        | hang => rw [h2] at h; cases h
    | throws x => rw [h1] at h; cases h
    | ub => rw [h1] at h; cases h
    | hang => rw [h1] at h; cases h

end Verif.Client
