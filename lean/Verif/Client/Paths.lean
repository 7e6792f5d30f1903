import Verif.Ipp.SaveProps

/-!
# The files of saved settings: lib/configdir.h, ippprintjob.cpp 317-374; property C104

Elsewhere saved settings are kept under the printer's uuid (`Store`). Here they are files, and the uuid is what the printer sends: the code makes a path from
it.
-/

namespace Verif.Client

open Ipp Ipp.Spec

/-! ## Model -/

/-- `operator/` of `std::filesystem::path` on POSIX ([fs.path.append]): an absolute path replaces what is before it, and a separator comes in between unless there
is one or nothing. -/
def pathAppend (p q : Bytes) : Bytes :=
  if q.head? = some 47 then q else if p ≠ [] ∧ p.getLast? ≠ some 47 then p ++ 47 :: q else p ++ q

/-- `CONFIG_DIR`, configdir.h 2, by the value of `USER` (none: not set, `getenv` gives a null pointer, from which no string can be made). -/
def configDir : Option Bytes → Outcome Bytes
  | none => .ub
  | some user => .ok (ascii "/home/" ++ user ++ ascii "/.ppm2pwg")

/-- `settings_dir`, ippprintjob.cpp 317-320 -/
def settingsDir (user : Option Bytes) : Outcome Bytes := do
  let c ← configDir user
  return pathAppend c (ascii "saved_settings")

/-- The name of the file with the overrides, ippprinter.cpp 560 -/
def overridesPath (user : Option Bytes) : Outcome Bytes := do
  let c ← configDir user
  return c ++ ascii "/overrides"

/-- The parts of a path between the separators. -/
def components : Bytes → List Bytes
  | [] => [[]]
  | b :: r =>
    if b = 47 then [] :: components r
    else match components r with
      | c :: cs => (b :: c) :: cs
      | [] => [[b]]

/-- The file system. A place is given by the names on the way to it. There are no links, and what can be read of a directory is not modelled. -/
structure Tree where
  dir : List Bytes → Bool
  file : List Bytes → Option Bytes
  /-- whether a file or a directory can be made here, or the file that is here be replaced -/
  writable : List Bytes → Bool

/-- One step on the way. -/
def step (at_ : List Bytes) (c : Bytes) : List Bytes :=
  if c = [] ∨ c = [46] then at_ else if c = [46, 46] then at_.dropLast else at_ ++ [c]

/-- The way from one place along names; each is looked up in a directory. -/
def Tree.walk (t : Tree) : List Bytes → List Bytes → Option (List Bytes)
  | pl, [] => some pl
  | pl, c :: r => if t.dir pl then t.walk (step pl c) r else none

/-- The place that a path leads to. It ends at the first zero byte (`c_str`), and starts at the root, as all paths here do. -/
def Tree.find (t : Tree) (path : Bytes) : Option (List Bytes) := t.walk [] (components (path.takeWhile (· ≠ 0)))

/-- `std::ifstream` and `Bytestream(std::istream&)`: what is in the file. -/
def Tree.read (t : Tree) (path : Bytes) : Option Bytes :=
  match t.find path with
  | some pl => if t.dir pl then none else t.file pl
  | none => none

/-- `std::ofstream`: nothing happens if it can not be opened. -/
def Tree.write (t : Tree) (path data : Bytes) : Tree :=
  match t.find path with
  | some pl => if !t.dir pl ∧ t.writable pl then { t with file := fun x => if x = pl then some data else t.file x } else t
  | none => t

/-- `std::filesystem::create_directories` from a place on; none: `std::filesystem::filesystem_error`. -/
def Tree.makeDirs (t : Tree) : List Bytes → List Bytes → Option Tree
  | _, [] => some t
  | pl, c :: r =>
    if t.dir (step pl c) then t.makeDirs (step pl c) r
    else if t.file (step pl c) = none ∧ t.writable (step pl c) then
      { t with dir := fun x => x = step pl c || t.dir x : Tree }.makeDirs (step pl c) r
    else none

/-- `saveSettings`, ippprintjob.cpp 354-374, on files: the result and the files; none: an exception of the file system, which nobody catches. `dump` is that of
json11. -/
def saveTo (user : Option Bytes) (dump : Json → Bytes) (printerAttrs opAttrs jobAttrs : Attrs) (t : Tree) : Outcome (Option (Bool × Tree)) :=
  match KMap.get? printerAttrs (ascii "printer-uuid") with
  | some (_, .str uuid) => do
    let dir ← settingsDir user
    match t.makeDirs [] (components dir) with
    | none => return none
    | some t' => return some (true, t'.write (pathAppend dir uuid) (dump (.obj (settingsToJson opAttrs jobAttrs))))
  | some _ => .throws .badVariant
  | none => .ok (some (false, t))

/-- `restoreSettings`, ippprintjob.cpp 327-352, on files. `parse` is that of json11: null for a text that is not JSON. -/
def restoreAt (user : Option Bytes) (parse : Bytes → Json) (printerAttrs opAttrs jobAttrs : Attrs) (t : Tree) : Outcome (Attrs × Attrs) :=
  match KMap.get? printerAttrs (ascii "printer-uuid") with
  | some (_, .str uuid) => do
    let dir ← settingsDir user
    match t.read (pathAppend dir uuid) with
    | some text => restoreFrom (parse text) opAttrs jobAttrs
    | none => return (opAttrs, jobAttrs)
  | some _ => .throws .badVariant
  | none => .ok (opAttrs, jobAttrs)

/-! ## Specification -/

namespace Spec

/-- A name that a file can have. -/
def FileName (n : Bytes) : Prop := n ≠ [] ∧ n ≠ ascii "." ∧ n ≠ ascii ".." ∧ 47 ∉ n ∧ 0 ∉ n

/-- The place of the saved settings of a user. -/
def settingsPlace (u : Bytes) : List Bytes := [ascii "home", u, ascii ".ppm2pwg", ascii "saved_settings"]

/-- A uuid as RFC 8011 and RFC 4122 have it. -/
def UrnUuid (n : Bytes) : Prop := ∃ digits : Bytes, n = ascii "urn:uuid:" ++ digits ∧ ∀ b ∈ digits, (48 ≤ b ∧ b ≤ 57) ∨ (97 ≤ b ∧ b ≤ 102) ∨ (65 ≤ b ∧ b ≤ 70) ∨ b = 45

/-- Files are in directories, and are none. -/
structure Sound (t : Tree) : Prop where
  root : t.dir [] = true
  parents : ∀ pl k, t.file pl ≠ none ∨ t.dir pl = true → k < pl.length → t.dir (pl.take k) = true
  files : ∀ pl, t.file pl ≠ none → t.dir pl = false

/-- The settings that the files of a user hold, by uuid. -/
def heldBy (u : Bytes) (parse : Bytes → Json) (t : Tree) : Store := fun n => (t.file (settingsPlace u ++ [n])).map parse

/-- The printer's uuid. -/
def HasUuid (pa : Attrs) (n : Bytes) : Prop := ∃ tag, KMap.get? pa (ascii "printer-uuid") = some (tag, .str n)

end Spec

open Spec

/-! ## Proofs -/

theorem components_ne (p : Bytes) : components p ≠ [] := by
  cases p with
  | nil => simp [components]
  | cons b r =>
    unfold components
    split
    · simp
    · split <;> simp

theorem components_append (p q : Bytes) : components (p ++ 47 :: q) = components p ++ components q := by
  induction p with
  | nil => simp [components]
  | cons b r ih =>
    rw [List.cons_append, components, components, ih]
    by_cases hb : b = 47
    · simp [hb]
    · simp only [if_neg hb]
      cases hr : components r with
      | nil => exact absurd hr (components_ne r)
      | cons c cs => simp

theorem components_name {n : Bytes} (h : 47 ∉ n) : components n = [n] := by
  induction n with
  | nil => rfl
  | cons b r ih =>
    rw [components, if_neg (fun e => h (by rw [e]; exact List.mem_cons_self ..)), ih (fun hm => h (List.mem_cons_of_mem _ hm))]

theorem step_name {n : Bytes} (h : FileName n) (pl : List Bytes) : step pl n = pl ++ [n] := by
  unfold step
  rw [if_neg, if_neg]
  · exact fun e => h.2.2.1 (by rw [e]; decide +kernel)
  · rintro (e | e)
    · exact h.1 e
    · exact h.2.1 (by rw [e]; decide +kernel)

theorem pathAppend_rel {p q : Bytes} (h : q.head? ≠ some 47) (hp : p.getLast? ≠ some 47) (hp' : p ≠ []) : pathAppend p q = p ++ 47 :: q := by
  unfold pathAppend
  rw [if_neg h, if_pos ⟨hp', hp⟩]

theorem head_name {n : Bytes} (h : 47 ∉ n) : n.head? ≠ some 47 := by
  intro e
  cases n with
  | nil => cases e
  | cons b r => cases e; exact h (List.mem_cons_self ..)

/-- The path of the directory. -/
def dirPath (u : Bytes) : Bytes := ascii "/home/" ++ u ++ ascii "/.ppm2pwg" ++ 47 :: ascii "saved_settings"

theorem settingsDir_some (u : Bytes) : settingsDir (some u) = .ok (dirPath u) := by
  unfold settingsDir configDir
  rw [Outcome.bind_ok]
  show Outcome.ok (pathAppend _ _) = _
  rw [pathAppend_rel (by decide +kernel) (by
    have e : (ascii "/.ppm2pwg").getLast? = some 103 := by decide +kernel
    rw [List.getLast?_append, e]
    simp) (by
    intro h
    have : (ascii "/.ppm2pwg") = [] := (List.append_eq_nil_iff.mp h).2
    exact absurd this (by decide +kernel))]
  rfl

theorem dirPath_last (u : Bytes) : (dirPath u).getLast? ≠ some 47 := by
  have e : (47 :: ascii "saved_settings").getLast? = some 115 := by decide +kernel
  unfold dirPath
  rw [List.getLast?_append, e]
  simp

theorem dirPath_ne (u : Bytes) : dirPath u ≠ [] := by
  unfold dirPath
  intro h
  have := (List.append_eq_nil_iff.mp h).2
  cases this

theorem components_dir {u : Bytes} (h : FileName u) : components (dirPath u) = [] :: settingsPlace u := by
  have e : dirPath u = [] ++ 47 :: (ascii "home" ++ 47 :: (u ++ 47 :: (ascii ".ppm2pwg" ++ 47 :: ascii "saved_settings"))) := by
    have h1 : ascii "/home/" = 47 :: (ascii "home" ++ [47]) := by decide +kernel
    have h2 : ascii "/.ppm2pwg" = 47 :: ascii ".ppm2pwg" := by decide +kernel
    unfold dirPath
    rw [h1, h2]
    simp
  rw [e, components_append, components_append, components_append, components_append, components_name h.2.2.2.1,
    components_name (by decide +kernel : 47 ∉ ascii "home"), components_name (by decide +kernel : 47 ∉ ascii ".ppm2pwg"),
    components_name (by decide +kernel : 47 ∉ ascii "saved_settings")]
  rfl

theorem walk_append (t : Tree) (pl cs ds : List Bytes) : t.walk pl (cs ++ ds) = (t.walk pl cs).bind (fun x => t.walk x ds) := by
  induction cs generalizing pl with
  | nil => rfl
  | cons c cs ih =>
    rw [List.cons_append, Tree.walk, Tree.walk]
    split
    · exact ih _
    · rfl

theorem takeWhile_name {n : Bytes} (h : 0 ∉ n) : n.takeWhile (· ≠ 0) = n := by
  induction n with
  | nil => rfl
  | cons b r ih =>
    have hb : b ≠ 0 := fun e => h (by rw [e]; exact List.mem_cons_self ..)
    rw [List.takeWhile_cons, if_pos (decide_eq_true hb), ih (fun hm => h (List.mem_cons_of_mem _ hm))]

theorem dirPath_zero {u : Bytes} (h : FileName u) : 0 ∉ dirPath u := by
  have h1 : 0 ∉ ascii "/home/" := by decide +kernel
  have h2 : 0 ∉ ascii "/.ppm2pwg" := by decide +kernel
  have h3 : 0 ∉ 47 :: ascii "saved_settings" := by decide +kernel
  unfold dirPath
  simp only [List.mem_append, not_or]
  exact ⟨⟨⟨h1, h.2.2.2.2⟩, h2⟩, h3⟩

/-- The place of a path below the settings. -/
theorem find_below {u n : Bytes} (hu : FileName u) (hn : 0 ∉ n) (t : Tree) :
    t.find (dirPath u ++ 47 :: n) = (t.walk [] ([] :: settingsPlace u)).bind (fun x => t.walk x (components n)) := by
  unfold Tree.find
  rw [takeWhile_name (by
    rw [List.mem_append, List.mem_cons, not_or, not_or]
    exact ⟨dirPath_zero hu, by decide, hn⟩), components_append, components_dir hu, walk_append]

theorem name_const : FileName (ascii "home") ∧ FileName (ascii ".ppm2pwg") ∧ FileName (ascii "saved_settings") := by
  unfold FileName
  decide +kernel

/-- All directories on the way are there. -/
def Ready (t : Tree) (u : Bytes) : Prop := ∀ k, k ≤ 4 → t.dir ((settingsPlace u).take k) = true

theorem walk_place {u : Bytes} (hu : FileName u) (t : Tree) :
    t.walk [] ([] :: settingsPlace u) =
      if t.dir [] ∧ t.dir [ascii "home"] ∧ t.dir [ascii "home", u] ∧ t.dir [ascii "home", u, ascii ".ppm2pwg"] then some (settingsPlace u) else none := by
  have s0 : step [] [] = [] := by decide
  have s1 : step [] (ascii "home") = [ascii "home"] := step_name name_const.1 []
  have s2 : step [ascii "home"] u = [ascii "home", u] := step_name hu _
  have s3 : step [ascii "home", u] (ascii ".ppm2pwg") = [ascii "home", u, ascii ".ppm2pwg"] := step_name name_const.2.1 _
  have s4 : step [ascii "home", u, ascii ".ppm2pwg"] (ascii "saved_settings") = settingsPlace u := step_name name_const.2.2 _
  unfold settingsPlace at s4 ⊢
  simp only [Tree.walk, s0, s1, s2, s3, s4]
  by_cases h0 : t.dir [] <;> by_cases h1 : t.dir [ascii "home"] <;> by_cases h2 : t.dir [ascii "home", u] <;>
    by_cases h3 : t.dir [ascii "home", u, ascii ".ppm2pwg"] <;> simp [h0, h1, h2, h3]

theorem walk_ready {u : Bytes} (hu : FileName u) {t : Tree} (h : Ready t u) : t.walk [] ([] :: settingsPlace u) = some (settingsPlace u) := by
  rw [walk_place hu, if_pos]
  exact ⟨h 0 (by decide), h 1 (by decide), h 2 (by decide), h 3 (by decide)⟩

theorem find_name {u n : Bytes} (hu : FileName u) (hn : FileName n) {t : Tree} (h : Ready t u) :
    t.find (dirPath u ++ 47 :: n) = some (settingsPlace u ++ [n]) := by
  rw [find_below hu hn.2.2.2.2, walk_ready hu h, components_name hn.2.2.2.1]
  show t.walk (settingsPlace u) [n] = _
  have h4 : t.dir (settingsPlace u) = true := h 4 (by decide)
  rw [Tree.walk, if_pos h4, step_name hn]
  rfl

theorem append_name {u n : Bytes} (hn : FileName n) : pathAppend (dirPath u) n = dirPath u ++ 47 :: n :=
  pathAppend_rel (head_name hn.2.2.2.1) (dirPath_last u) (dirPath_ne u)

/-- What making the directories leaves alone. -/
theorem makeDirs_keeps (t : Tree) (pl cs : List Bytes) {t' : Tree} (h : t.makeDirs pl cs = some t') :
    t'.file = t.file ∧ t'.writable = t.writable ∧ (∀ x, t.dir x = true → t'.dir x = true) := by
  induction cs generalizing t pl with
  | nil => cases h; exact ⟨rfl, rfl, fun _ h => h⟩
  | cons c cs ih =>
    unfold Tree.makeDirs at h
    split at h
    · exact ih _ _ h
    · split at h
      · obtain ⟨h1, h2, h3⟩ := ih _ _ h
        exact ⟨h1, h2, fun x hx => h3 x (by simp [hx])⟩
      · cases h

/-- What is a directory afterwards. -/
theorem makeDirs_made (t : Tree) (pl cs : List Bytes) {t' : Tree} (h : t.makeDirs pl cs = some t') :
    ∀ k, 0 < k → k ≤ cs.length → t'.dir ((cs.take k).foldl step pl) = true := by
  induction cs generalizing t pl with
  | nil => intro k h0 hk; simp at hk; omega
  | cons c cs ih =>
    intro k h0 hk
    unfold Tree.makeDirs at h
    obtain ⟨k, rfl⟩ : ∃ j, k = j + 1 := ⟨k - 1, by omega⟩
    rw [List.take_succ_cons, List.foldl_cons]
    split at h
    · rename_i hd
      cases k with
      | zero => exact (makeDirs_keeps _ _ _ h).2.2 _ hd
      | succ k => exact ih _ _ h (k + 1) (by omega) (by simpa using hk)
    · split at h
      · cases k with
        | zero => exact (makeDirs_keeps _ _ _ h).2.2 _ (by simp)
        | succ k => exact ih _ _ h (k + 1) (by omega) (by simpa using hk)
      · cases h

/-- Nothing else becomes a directory. -/
theorem makeDirs_only (t : Tree) (pl cs : List Bytes) {t' : Tree} (h : t.makeDirs pl cs = some t') (x : List Bytes) (hx : t'.dir x = true) :
    t.dir x = true ∨ (∃ k, 0 < k ∧ k ≤ cs.length ∧ x = (cs.take k).foldl step pl) ∧ t.file x = none := by
  induction cs generalizing t pl with
  | nil => cases h; exact .inl hx
  | cons c cs ih =>
    unfold Tree.makeDirs at h
    split at h
    · rcases ih _ _ h with g | ⟨⟨k, g1, g2, g3⟩, g4⟩
      · exact .inl g
      · exact .inr ⟨⟨k + 1, by omega, by simpa using g2, by rw [List.take_succ_cons, List.foldl_cons]; exact g3⟩, g4⟩
    · split at h
      · rename_i hf
        rcases ih _ _ h with g | ⟨⟨k, g1, g2, g3⟩, g4⟩
        · rw [Bool.or_eq_true, decide_eq_true_eq] at g
          rcases g with g | g
          · exact .inr ⟨⟨1, by omega, by simp, by simp [g]⟩, by rw [g]; exact hf.1⟩
          · exact .inl g
        · exact .inr ⟨⟨k + 1, by omega, by simpa using g2, by rw [List.take_succ_cons, List.foldl_cons]; exact g3⟩, g4⟩
      · cases h

theorem fold_place {u : Bytes} (hu : FileName u) (k : Nat) (hk : k ≤ 4) : (([] :: settingsPlace u).take (k + 1)).foldl step [] = (settingsPlace u).take k := by
  have s0 : step [] [] = [] := by decide
  have s1 : step [] (ascii "home") = [ascii "home"] := step_name name_const.1 []
  have s2 : step [ascii "home"] u = [ascii "home", u] := step_name hu _
  have s3 : step [ascii "home", u] (ascii ".ppm2pwg") = [ascii "home", u, ascii ".ppm2pwg"] := step_name name_const.2.1 _
  have s4 : step [ascii "home", u, ascii ".ppm2pwg"] (ascii "saved_settings") = [ascii "home", u, ascii ".ppm2pwg", ascii "saved_settings"] := step_name name_const.2.2 _
  unfold settingsPlace
  match k, hk with
  | 0, _ => exact s0
  | 1, _ => simp [s0, s1]
  | 2, _ => simp [s0, s1, s2]
  | 3, _ => simp [s0, s1, s2, s3]
  | 4, _ => simp [s0, s1, s2, s3, s4]

theorem ready_made {u : Bytes} (hu : FileName u) {t t' : Tree} (h : t.makeDirs [] (components (dirPath u)) = some t') : Ready t' u := by
  rw [components_dir hu] at h
  intro k hk
  have := makeDirs_made t [] _ h (k + 1) (by omega) (by simp [settingsPlace]; omega)
  rwa [fold_place hu k hk] at this

theorem write_at {t : Tree} {path data : Bytes} {pl : List Bytes} (h : t.find path = some pl) :
    (∀ x, x ≠ pl → (t.write path data).file x = t.file x) ∧ (t.dir pl = false → t.writable pl = true → (t.write path data).file pl = some data) ∧
      (t.write path data).dir = t.dir ∧ (t.write path data).writable = t.writable := by
  unfold Tree.write
  rw [h]
  simp only
  split
  · exact ⟨fun x hx => if_neg hx, fun _ _ => if_pos rfl, rfl, rfl⟩
  · rename_i hn
    exact ⟨fun _ _ => rfl, fun h1 h2 => absurd ⟨by simp [h1], h2⟩ hn, rfl, rfl⟩

/-- **C104.** When the printer's uuid is a name that a file can have, then the settings are in the file with this name in the directory of the user: saving touches no
other file and, if one may be made there, leaves the settings in it. Missing: other uuids (`C104_outside_false`). -/
theorem C104_saves_partial (u n : Bytes) (hu : FileName u) (hn : FileName n) (dump : Json → Bytes) (pa op job : Attrs) (hp : HasUuid pa n) (t : Tree)
    (r : Outcome (Option (Bool × Tree))) (hr : saveTo (some u) dump pa op job t = r) :
    r = .ok none ∨ ∃ t', r = .ok (some (true, t')) ∧ (∀ pl, pl ≠ settingsPlace u ++ [n] → t'.file pl = t.file pl) ∧
      (t.dir (settingsPlace u ++ [n]) = false → t.writable (settingsPlace u ++ [n]) = true →
        t'.file (settingsPlace u ++ [n]) = some (dump (.obj (settingsToJson op job)))) ∧
      ∀ pl, t'.dir pl = true → t.dir pl = true ∨ ∃ k, pl = (settingsPlace u).take k := by
  subst hr
  obtain ⟨tag, hp⟩ := hp
  unfold saveTo
  rw [hp]
  simp only [settingsDir_some, Outcome.bind_ok]
  cases hm : t.makeDirs [] (components (dirPath u)) with
  | none => exact .inl rfl
  | some t1 =>
    right
    have hready := ready_made hu hm
    have hfind := find_name hu hn hready
    rw [append_name hn]
    obtain ⟨w1, w2, w3, _⟩ := write_at (data := dump (.obj (settingsToJson op job))) hfind
    obtain ⟨k1, k2, k3⟩ := makeDirs_keeps _ _ _ hm
    have hdirs : ∀ pl, t1.dir pl = true → t.dir pl = true ∨ ∃ k, k ≤ 4 ∧ pl = (settingsPlace u).take k := by
      intro pl hpl
      rw [components_dir hu] at hm
      rcases makeDirs_only _ _ _ hm pl hpl with g | ⟨⟨k, g1, g2, g3⟩, _⟩
      · exact .inl g
      · obtain ⟨j, rfl⟩ : ∃ j, k = j + 1 := ⟨k - 1, by omega⟩
        rw [fold_place hu j (by simp [settingsPlace] at g2; omega)] at g3
        exact .inr ⟨j, by simp [settingsPlace] at g2; omega, g3⟩
    refine ⟨_, rfl, fun pl hpl => by rw [w1 pl hpl, k1], fun h1 h2 => ?_, fun pl hpl => ?_⟩
    · apply w2
      · cases hd : t1.dir (settingsPlace u ++ [n]) with
        | false => rfl
        | true =>
          rcases hdirs _ hd with g | ⟨k, g1, g2⟩
          · rw [h1] at g; cases g
          · have := congrArg List.length g2
            simp [settingsPlace] at this
            omega
      · rw [k2]; exact h2
    · rw [w3] at hpl
      rcases hdirs pl hpl with g | ⟨k, _, g⟩
      · exact .inl g
      · exact .inr ⟨k, g⟩

/-- **C104.** Printers with different such uuids have their settings in different files, and those of a user are not those of another. -/
theorem C104_separate (u v n m : Bytes) (h : settingsPlace u ++ [n] = settingsPlace v ++ [m]) : u = v ∧ n = m := by
  unfold settingsPlace at h
  simp at h
  exact h

/-- **C104.** Uuids as the standards have them are names that a file can have. -/
theorem C104_uuids (n : Bytes) (h : UrnUuid n) : FileName n := by
  obtain ⟨d, rfl, hd⟩ := h
  obtain ⟨r, hr⟩ : ∃ r, ascii "urn:uuid:" = 117 :: r := ⟨(ascii "urn:uuid:").tail, by decide +kernel⟩
  have h47 : 47 ∉ ascii "urn:uuid:" := by decide +kernel
  have h0 : 0 ∉ ascii "urn:uuid:" := by decide +kernel
  have key : ∀ b : UInt8, ¬ ((48 ≤ b ∧ b ≤ 57) ∨ (97 ≤ b ∧ b ≤ 102) ∨ (65 ≤ b ∧ b ≤ 70) ∨ b = 45) → b ∉ ascii "urn:uuid:" → b ∉ ascii "urn:uuid:" ++ d := by
    intro b hb h1 h2
    rcases List.mem_append.mp h2 with h2 | h2
    · exact h1 h2
    · exact hb (hd b h2)
  refine ⟨by rw [hr]; simp, ?_, ?_, key 47 (by decide) h47, key 0 (by decide) h0⟩
  · rw [hr]
    intro e
    have := congrArg List.head? e
    revert this
    simp only [List.cons_append, List.head?_cons]
    decide +kernel
  · rw [hr]
    intro e
    have := congrArg List.head? e
    revert this
    simp only [List.cons_append, List.head?_cons]
    decide +kernel

theorem read_name {u n : Bytes} (hu : FileName u) (hn : FileName n) {t : Tree} (ht : Sound t) :
    t.read (dirPath u ++ 47 :: n) = t.file (settingsPlace u ++ [n]) := by
  by_cases h : Ready t u
  · unfold Tree.read
    rw [find_name hu hn h]
    simp only
    split
    · rename_i hd
      cases hf : t.file (settingsPlace u ++ [n]) with
      | none => rfl
      | some x =>
        have := ht.files (settingsPlace u ++ [n]) (by rw [hf]; exact fun h => by cases h)
        rw [hd] at this
        cases this
    · rfl
  · have hnone : t.file (settingsPlace u ++ [n]) = none := by
      cases hf : t.file (settingsPlace u ++ [n]) with
      | none => rfl
      | some x =>
        refine absurd (fun k hk => ?_) h
        have := ht.parents (settingsPlace u ++ [n]) k (.inl (by rw [hf]; exact fun h => by cases h)) (by simp [settingsPlace]; omega)
        rwa [List.take_append_of_le_length (by simp [settingsPlace]; omega)] at this
    rw [hnone]
    unfold Tree.read
    rw [find_below hu hn.2.2.2.2, walk_place hu, components_name hn.2.2.2.1]
    split
    · rename_i pl hpl
      exfalso
      apply h
      split at hpl
      · rename_i hd
        simp only [Option.bind_some, Tree.walk] at hpl
        split at hpl
        · rename_i h4
          intro k hk
          match k, hk with
          | 0, _ => exact hd.1
          | 1, _ => exact hd.2.1
          | 2, _ => exact hd.2.2.1
          | 3, _ => exact hd.2.2.2
          | 4, _ => exact h4
        · cases hpl
      · cases hpl
    · rfl

/-- **C104.** With such uuids the files are as good as a store by uuids, as C28 and C77 have it: restoring gives what it gives with the settings that the files
hold... -/
theorem C104_restores_partial (u n : Bytes) (hu : FileName u) (hn : FileName n) (parse : Bytes → Json) (pa op job : Attrs) (hp : HasUuid pa n) (t : Tree) (ht : Sound t) :
    restoreAt (some u) parse pa op job t = restoreSettings pa op job (heldBy u parse t) := by
  obtain ⟨tag, hp⟩ := hp
  unfold restoreAt restoreSettings heldBy
  rw [hp]
  simp only [settingsDir_some, Outcome.bind_ok]
  rw [append_name hn, read_name hu hn ht]
  cases t.file (settingsPlace u ++ [n]) <;> rfl

/-- **C104.** ... and saving changes the settings that the files hold as it changes the store. -/
theorem C104_stores_partial (u n : Bytes) (hu : FileName u) (hn : FileName n) (dump : Json → Bytes) (parse : Bytes → Json)
    (pa op job : Attrs) (hd : parse (dump (.obj (settingsToJson op job))) = .obj (settingsToJson op job)) (hp : HasUuid pa n) (t t' : Tree) (b : Bool) (hf : t.dir (settingsPlace u ++ [n]) = false) (hw : t.writable (settingsPlace u ++ [n]) = true)
    (h : saveTo (some u) dump pa op job t = .ok (some (b, t'))) :
    saveSettings pa op job (heldBy u parse t) = .ok (b, heldBy u parse t') := by
  rcases C104_saves_partial u n hu hn dump pa op job hp t _ h with g | ⟨t1, g, g1, g2, _⟩
  · cases g
  · cases g
    obtain ⟨tag, hp⟩ := hp
    unfold saveSettings
    rw [hp]
    refine congrArg (fun s => Outcome.ok (true, s)) (funext fun f => ?_)
    unfold heldBy
    by_cases hfn : f = n
    · subst hfn
      rw [if_pos rfl, g2 hf hw]
      exact congrArg some hd.symm
    · rw [if_neg hfn, g1]
      intro e
      exact hfn (C104_separate u u f n e).2

theorem makeDirs_ready {u : Bytes} (hu : FileName u) {t : Tree} (hready : Ready t u) : t.makeDirs [] (components (dirPath u)) = some t := by
  rw [components_dir hu]
  have s0 : step [] [] = [] := by decide
  have s1 : step [] (ascii "home") = [ascii "home"] := step_name name_const.1 []
  have s2 : step [ascii "home"] u = [ascii "home", u] := step_name hu _
  have s3 : step [ascii "home", u] (ascii ".ppm2pwg") = [ascii "home", u, ascii ".ppm2pwg"] := step_name name_const.2.1 _
  have s4 : step [ascii "home", u, ascii ".ppm2pwg"] (ascii "saved_settings") = [ascii "home", u, ascii ".ppm2pwg", ascii "saved_settings"] := step_name name_const.2.2 _
  have d0 : t.dir [] = true := hready 0 (by decide)
  have d1 : t.dir [ascii "home"] = true := hready 1 (by decide)
  have d2 : t.dir [ascii "home", u] = true := hready 2 (by decide)
  have d3 : t.dir [ascii "home", u, ascii ".ppm2pwg"] = true := hready 3 (by decide)
  have d4 : t.dir [ascii "home", u, ascii ".ppm2pwg", ascii "saved_settings"] = true := hready 4 (by decide)
  unfold settingsPlace
  simp only [Tree.makeDirs, s0, s1, s2, s3, s4, d0, d1, d2, d3, d4, if_true]

/-- **C104, what the code does with other uuids**: with an absolute path for a uuid the printer decides which file is written, wherever it is. -/
theorem C104_anywhere (u path : Bytes) (hu : FileName u) (hz : path.head? = some 47) (dump : Json → Bytes) (pa op job : Attrs) (hp : HasUuid pa path) (t : Tree)
    (hready : ∀ k, k ≤ 4 → t.dir ((settingsPlace u).take k) = true) (pl : List Bytes) (hf : t.find path = some pl) (hd : t.dir pl = false) (hw : t.writable pl = true) :
    ∃ t', saveTo (some u) dump pa op job t = .ok (some (true, t')) ∧ t'.file pl = some (dump (.obj (settingsToJson op job))) := by
  obtain ⟨tag, hp⟩ := hp
  have hm := makeDirs_ready hu hready
  have happ : pathAppend (dirPath u) path = path := by unfold pathAppend; rw [if_pos hz]
  refine ⟨t.write path (dump (.obj (settingsToJson op job))), ?_, (write_at hf).2.1 hd hw⟩
  unfold saveTo
  rw [hp]
  simp only [settingsDir_some, Outcome.bind_ok, hm, happ]
  rfl

/-- The full claim of C104. -/
def C104_full : Prop :=
  ∀ (u n : Bytes) (dump : Json → Bytes) (pa op job : Attrs) (t t' : Tree) (b : Bool), FileName u → HasUuid pa n → Sound t →
    saveTo (some u) dump pa op job t = .ok (some (b, t')) → ∀ pl, t'.file pl ≠ t.file pl → ∃ m, pl = settingsPlace u ++ [m]

/-- The user "u" with a file. -/
def homeTree : Tree :=
  { dir := fun pl => pl = [] || pl = [ascii "home"] || pl = [ascii "home", ascii "u"] || pl = [ascii "home", ascii "u", ascii ".ppm2pwg"] ||
      pl = [ascii "home", ascii "u", ascii ".ppm2pwg", ascii "saved_settings"]
    file := fun pl => if pl = [ascii "home", ascii "u", ascii ".profile"] then some (ascii "umask 22") else none
    writable := fun pl => [ascii "home", ascii "u"].isPrefixOf pl }

theorem homeTree_sound : Sound homeTree := by
  refine ⟨by decide +kernel, fun pl k h hk => ?_, fun pl h => ?_⟩
  · have : pl = [] ∨ pl = [ascii "home"] ∨ pl = [ascii "home", ascii "u"] ∨ pl = [ascii "home", ascii "u", ascii ".ppm2pwg"] ∨
        pl = [ascii "home", ascii "u", ascii ".ppm2pwg", ascii "saved_settings"] ∨ pl = [ascii "home", ascii "u", ascii ".profile"] := by
      rcases h with h | h
      · simp only [homeTree] at h
        split at h
        · rename_i e; simp [e]
        · exact absurd rfl h
      · simp only [homeTree, Bool.or_eq_true, decide_eq_true_eq] at h
        rcases h with (((h | h) | h) | h) | h <;> simp [h]
    have all : ∀ pl ∈ [[], [ascii "home"], [ascii "home", ascii "u"], [ascii "home", ascii "u", ascii ".ppm2pwg"],
        [ascii "home", ascii "u", ascii ".ppm2pwg", ascii "saved_settings"], [ascii "home", ascii "u", ascii ".profile"]], ∀ k, k < pl.length → homeTree.dir (pl.take k) = true := by
      decide +kernel
    exact all pl (by rcases this with h | h | h | h | h | h <;> simp [h]) k hk
  · simp only [homeTree] at h
    split at h
    · rename_i e; subst e; decide +kernel
    · exact absurd rfl h

/-- **C104 is false of the code**: a printer that calls itself "../../.profile" has the settings written over the user's profile. -/
theorem C104_outside_false : ¬ C104_full := by
  intro h
  have hs : ∀ t', saveTo (some (ascii "u")) (fun _ => ascii "{}") [(ascii "printer-uuid", (0x45, .str (ascii "../../.profile")))] [] [] homeTree = .ok (some (true, t')) →
      t'.file [ascii "home", ascii "u", ascii ".profile"] = some (ascii "{}") → False := by
    intro t' h1 h2
    obtain ⟨m, hm⟩ := h (ascii "u") (ascii "../../.profile") (fun _ => ascii "{}") [(ascii "printer-uuid", (0x45, .str (ascii "../../.profile")))] [] [] homeTree t' true
      (by unfold FileName; decide +kernel) ⟨0x45, by decide +kernel⟩ homeTree_sound h1 [ascii "home", ascii "u", ascii ".profile"] (by rw [h2]; decide +kernel)
    have := congrArg List.length hm
    simp [settingsPlace] at this
  have hd : saveTo (some (ascii "u")) (fun _ => ascii "{}") [(ascii "printer-uuid", (0x45, .str (ascii "../../.profile")))] [] [] homeTree =
      .ok (some (true, homeTree.write (pathAppend (dirPath (ascii "u")) (ascii "../../.profile")) (ascii "{}"))) := by
    unfold saveTo
    have hm : homeTree.makeDirs [] (components (dirPath (ascii "u"))) = some homeTree := by
      rw [components_dir (by unfold FileName; decide +kernel)]
      rfl
    have hk : KMap.get? [(ascii "printer-uuid", ((0x45 : UInt8), Value.str (ascii "../../.profile")))] (ascii "printer-uuid") = some (0x45, .str (ascii "../../.profile")) := by
      decide +kernel
    rw [hk]
    simp only [settingsDir_some, Outcome.bind_ok, hm]
    rfl
  refine hs _ hd ?_
  have hf : homeTree.find (pathAppend (dirPath (ascii "u")) (ascii "../../.profile")) = some [ascii "home", ascii "u", ascii ".profile"] := by decide +kernel
  exact (write_at hf).2.1 (by decide +kernel) (by decide +kernel)

/-- **C104 is false of the code** for the separation of printers, too: printers that call themselves "a" and "./a" have one file. -/
theorem C104_mixed_false : homeTree.find (pathAppend (dirPath (ascii "u")) (ascii "a")) = homeTree.find (pathAppend (dirPath (ascii "u")) (ascii "./a")) ∧
    homeTree.find (pathAppend (dirPath (ascii "u")) (ascii "a")) = some (settingsPlace (ascii "u") ++ [ascii "a"]) := by decide +kernel

/-- **C104 is false of the code** without `USER` in the environment: saving, restoring and looking for overrides make a string of a null pointer. -/
theorem C104_user_false (n : Bytes) (dump : Json → Bytes) (parse : Bytes → Json) (pa op job : Attrs) (hp : HasUuid pa n) (t : Tree) :
    saveTo none dump pa op job t = .ub ∧ restoreAt none parse pa op job t = .ub ∧ overridesPath none = .ub := by
  obtain ⟨tag, hp⟩ := hp
  refine ⟨?_, ?_, rfl⟩
  · unfold saveTo; rw [hp]; rfl
  · unfold restoreAt; rw [hp]; rfl

/-- **C104.** The file with the overrides is next to the directory with the saved settings, and is none of the files in it. -/
theorem C104_overrides {u : Bytes} (hu : FileName u) {t : Tree} (h : Ready t u) : ∃ path, overridesPath (some u) = .ok path ∧
    t.find path = some [ascii "home", u, ascii ".ppm2pwg", ascii "overrides"] ∧ ∀ v n, settingsPlace v ++ [n] ≠ [ascii "home", u, ascii ".ppm2pwg", ascii "overrides"] := by
  refine ⟨_, rfl, ?_, fun v n he => by have := congrArg List.length he; simp [settingsPlace] at this⟩
  have hz : 0 ∉ ascii "/home/" ++ u ++ ascii "/.ppm2pwg" ++ ascii "/overrides" := by
    simp only [List.mem_append, not_or]
    exact ⟨⟨⟨by decide +kernel, hu.2.2.2.2⟩, by decide +kernel⟩, by decide +kernel⟩
  unfold Tree.find
  rw [takeWhile_name hz]
  have e : ascii "/home/" ++ u ++ ascii "/.ppm2pwg" ++ ascii "/overrides" = (ascii "/home") ++ 47 :: (u ++ 47 :: (ascii ".ppm2pwg" ++ 47 :: ascii "overrides")) := by
    rw [show ascii "/home/" = ascii "/home" ++ [47] from by decide +kernel, show ascii "/.ppm2pwg" = 47 :: ascii ".ppm2pwg" from by decide +kernel,
      show ascii "/overrides" = 47 :: ascii "overrides" from by decide +kernel]
    simp only [List.append_assoc, List.cons_append, List.nil_append]
  rw [e, components_append, components_append, components_append, components_name hu.2.2.2.1, show components (ascii "/home") = [[], ascii "home"] from by decide +kernel,
    show components (ascii ".ppm2pwg") = [ascii ".ppm2pwg"] from by decide +kernel, show components (ascii "overrides") = [ascii "overrides"] from by decide +kernel]
  have s0 : step [] [] = [] := by decide
  have s1 : step [] (ascii "home") = [ascii "home"] := step_name name_const.1 []
  have s2 : step [ascii "home"] u = [ascii "home", u] := step_name hu _
  have s3 : step [ascii "home", u] (ascii ".ppm2pwg") = [ascii "home", u, ascii ".ppm2pwg"] := step_name name_const.2.1 _
  have s4 : step [ascii "home", u, ascii ".ppm2pwg"] (ascii "overrides") = [ascii "home", u, ascii ".ppm2pwg", ascii "overrides"] :=
    step_name (by unfold FileName; decide +kernel) _
  have d0 : t.dir [] = true := h 0 (by decide)
  have d1 : t.dir [ascii "home"] = true := h 1 (by decide)
  have d2 : t.dir [ascii "home", u] = true := h 2 (by decide)
  have d3 : t.dir [ascii "home", u, ascii ".ppm2pwg"] = true := h 3 (by decide)
  simp only [List.cons_append, List.nil_append, Tree.walk, s0, s1, s2, s3, s4, d0, d1, d2, d3, if_true]

/-- the home of the user u -/
example : Ready homeTree (ascii "u") := fun k hk => by
  have : k = 0 ∨ k = 1 ∨ k = 2 ∨ k = 3 ∨ k = 4 := by omega
  rcases this with rfl | rfl | rfl | rfl | rfl <;> decide +kernel

/-- **C104.** For a printer that has no uuid nothing is saved, and `saveSettings` says so; nothing is read, and no file is touched. A uuid that is not a text ends both with
an exception. -/
theorem C104_nameless (user : Option Bytes) (dump : Json → Bytes) (parse : Bytes → Json) (pa op job : Attrs) (t : Tree) (hn : ∀ n, ¬ HasUuid pa n) :
    (KMap.get? pa (ascii "printer-uuid") = none → saveTo user dump pa op job t = .ok (some (false, t)) ∧ restoreAt user parse pa op job t = .ok (op, job)) ∧
    (KMap.get? pa (ascii "printer-uuid") ≠ none → saveTo user dump pa op job t = .throws .badVariant ∧ restoreAt user parse pa op job t = .throws .badVariant) := by
  unfold saveTo restoreAt
  cases hg : KMap.get? pa (ascii "printer-uuid") with
  | none => exact ⟨fun _ => ⟨rfl, rfl⟩, fun h => absurd rfl h⟩
  | some a =>
    refine ⟨fun h => (by cases h), fun _ => ?_⟩
    obtain ⟨tag, v⟩ := a
    cases v with
    | str n => exact absurd ⟨tag, hg⟩ (hn n)
    | _ => exact ⟨rfl, rfl⟩

example : (∀ n, ¬ HasUuid ([] : Attrs) n) ∧ KMap.get? ([] : Attrs) (ascii "printer-uuid") = none := ⟨fun _ ⟨_, h⟩ => (by cases h), rfl⟩

/-- A user, a uuid, files and a printer as the theorems ask for. -/
example : FileName (ascii "u") ∧ UrnUuid (ascii "urn:uuid:01234567-89ab-cdef") ∧ Sound homeTree ∧
    HasUuid [(ascii "printer-uuid", (0x45, .str (ascii "urn:uuid:01234567-89ab-cdef")))] (ascii "urn:uuid:01234567-89ab-cdef") ∧
    homeTree.dir (settingsPlace (ascii "u") ++ [ascii "urn:uuid:01234567-89ab-cdef"]) = false ∧
    homeTree.writable (settingsPlace (ascii "u") ++ [ascii "urn:uuid:01234567-89ab-cdef"]) = true :=
  ⟨by unfold FileName; decide +kernel, ⟨ascii "01234567-89ab-cdef", by decide +kernel, by decide +kernel⟩, homeTree_sound, ⟨0x45, by decide +kernel⟩,
    by decide +kernel, by decide +kernel⟩

end Verif.Client
