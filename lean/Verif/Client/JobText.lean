import Verif.Client.ShowProps
import Verif.Client.CommandProps

/-!
# C106: the text that `ippclient get-jobs` shows (utils/ippclient.cpp 102-115, 362)

`Client/Model.lean` has the list of jobs that is shown; here is its text. The theorems read it back.
-/

namespace Verif.Client

open Ipp Ipp.Spec Job Job.Spec Printer Printer.Spec Tools Tools.Spec
open Verif.Client.Spec

/-! ## The model -/

/-- One job, ippclient.cpp 106-112 -/
def jobText (i : JobInfo) : Bytes :=
  showInt i.id ++ ascii ": " ++ i.name ++ ascii "\n" ++ ascii "State: " ++ showInt i.state ++
    (if i.stateMessage ≠ [] then ascii " (" ++ i.stateMessage ++ ascii ")" else []) ++ ascii "\n"

/-- `operator<<(std::ostream&, List<IppPrinter::JobInfo>)`, ippclient.cpp 102-115 -/
def jobsText : List JobInfo → Bytes
  | [] => []
  | i :: r => jobText i ++ jobsText r

/-! ## Specification -/

namespace Spec

/-- The lines of a text, each of which ends with a line feed. -/
def lines : Bytes → List Bytes
  | [] => []
  | c :: r =>
    if c = 10 then [] :: lines r
    else match lines r with
      | l :: ls => (c :: l) :: ls
      | [] => [[c]]

/-- A job as two lines tell it: the number before the first colon, the name behind the space that follows it; the state behind `State: ` up to a space, and the message in parentheses. -/
def jobOf (a b : Bytes) : Option JobInfo := do
  let n := a.takeWhile (· ≠ 58)
  let id ← number n
  let s := (b.drop 7).takeWhile (· ≠ 32)
  let state ← number s
  return { id, name := a.drop (n.length + 2), state, stateMessage := (b.drop (7 + s.length + 2)).dropLast }

/-- The jobs that lines tell of, two lines for each. -/
def jobsOf : List Bytes → Option (List JobInfo)
  | [] => some []
  | [_] => none
  | a :: b :: r => do
    let i ← jobOf a b
    let is ← jobsOf r
    return i :: is

/-- Neither the name nor the message of the job has a line feed. -/
def OneLine (i : JobInfo) : Prop := (10 : UInt8) ∉ i.name ∧ (10 : UInt8) ∉ i.stateMessage

end Spec

/-! ## Reading lines -/

theorem lines_line (l r : Bytes) (h : (10 : UInt8) ∉ l) : Spec.lines (l ++ 10 :: r) = l :: Spec.lines r := by
  induction l with
  | nil => simp [Spec.lines]
  | cons c l ih =>
    simp only [List.mem_cons, not_or] at h
    rw [List.cons_append, Spec.lines, if_neg (fun e => h.1 e.symm), ih h.2]

theorem takeWhile_stop {p : UInt8 → Bool} (n : Bytes) (c : UInt8) (r : Bytes) (h : ∀ x ∈ n, p x = true) (hc : p c = false) :
    (n ++ c :: r).takeWhile p = n := by
  induction n with
  | nil => simp [hc]
  | cons a n ih => simp only [List.mem_cons, forall_eq_or_imp] at h; simp [h.1, ih h.2]

theorem show_plain (i : Int) (c : UInt8) (h : c ≠ 45) (hd : isDigit c = false) : c ∉ showInt i := by
  have : ∀ n, c ∉ dec n := fun n hm => by simp [dec_digits n c hm] at hd
  unfold showInt
  split
  · simp only [List.mem_cons, not_or]; exact ⟨h, this _⟩
  · exact this _

/-- The two lines of a job. -/
def firstLine (i : JobInfo) : Bytes := showInt i.id ++ 58 :: 32 :: i.name
def secondLine (i : JobInfo) : Bytes :=
  ascii "State: " ++ (showInt i.state ++ if i.stateMessage ≠ [] then 32 :: 40 :: (i.stateMessage ++ [41]) else [])

theorem jobText_lines (i : JobInfo) : jobText i = firstLine i ++ 10 :: (secondLine i ++ [10]) := by
  have e1 : ascii ": " = [58, 32] := by decide
  have e2 : ascii "\n" = [10] := by decide
  have e3 : ascii " (" = [32, 40] := by decide
  have e4 : ascii ")" = [41] := by decide
  simp only [jobText, firstLine, secondLine, e1, e2, e3, e4]
  split <;> simp

theorem firstLine_plain {i : JobInfo} (h : Spec.OneLine i) : (10 : UInt8) ∉ firstLine i := by
  simp only [firstLine, List.mem_append, List.mem_cons, not_or]
  exact ⟨show_plain _ _ (by decide) (by decide), by decide, by decide, h.1⟩

theorem secondLine_plain {i : JobInfo} (h : Spec.OneLine i) : (10 : UInt8) ∉ secondLine i := by
  simp only [secondLine, List.mem_append, not_or]
  refine ⟨by decide, show_plain _ _ (by decide) (by decide), ?_⟩
  split
  · simp only [List.mem_cons, List.mem_append, not_or, List.not_mem_nil, not_false_eq_true, and_true]
    exact ⟨by decide, by decide, h.2, by decide⟩
  · simp

theorem jobOf_lines (i : JobInfo) : Spec.jobOf (firstLine i) (secondLine i) = some i := by
  have h1 : (firstLine i).takeWhile (· ≠ 58) = showInt i.id :=
    takeWhile_stop _ _ _ (fun x hx => by simp only [decide_eq_true_eq]; rintro rfl; exact show_plain i.id 58 (by decide) (by decide) hx) (by decide)
  have h2 : (secondLine i).drop 7 = showInt i.state ++ if i.stateMessage ≠ [] then 32 :: 40 :: (i.stateMessage ++ [41]) else [] := by
    have : (ascii "State: ").length = 7 := by decide
    rw [secondLine, List.drop_left' this]
  have h3 : ((secondLine i).drop 7).takeWhile (· ≠ 32) = showInt i.state := by
    have hp : ∀ x ∈ showInt i.state, decide (x ≠ 32) = true :=
      fun x hx => by simp only [decide_eq_true_eq]; rintro rfl; exact show_plain i.state 32 (by decide) (by decide) hx
    rw [h2]
    split
    · exact takeWhile_stop _ _ _ hp (by decide)
    · exact takeWhile_all hp (by simp)
  have h4 : (firstLine i).drop ((showInt i.id).length + 2) = i.name := by
    rw [firstLine, List.drop_append]; simp
  have h5 : ((secondLine i).drop (7 + (showInt i.state).length + 2)).dropLast = i.stateMessage := by
    rw [show 7 + (showInt i.state).length + 2 = 7 + ((showInt i.state).length + 2) by omega, ← List.drop_drop, h2, List.drop_append]
    by_cases hm : i.stateMessage = []
    · rw [if_neg (not_not.mpr hm), List.drop_eq_nil_of_le (by omega), hm]; simp
    · rw [if_pos hm]
      simp
  simp only [Spec.jobOf, h1, h3, h4, h5, number_show]
  rfl

/-! ## C106 -/

theorem lines_jobsText (l : List JobInfo) (h : ∀ i ∈ l, Spec.OneLine i) : Spec.jobsOf (Spec.lines (jobsText l)) = some l := by
  induction l with
  | nil => rfl
  | cons i l ih =>
    simp only [List.mem_cons, forall_eq_or_imp] at h
    rw [jobsText, jobText_lines, List.append_assoc, List.cons_append, List.append_assoc, lines_line _ _ (firstLine_plain h.1)]
    show Spec.jobsOf (_ :: Spec.lines (secondLine i ++ 10 :: ([] ++ jobsText l))) = _
    rw [lines_line _ _ (secondLine_plain h.1), Spec.jobsOf, jobOf_lines, List.nil_append, ih h.2]
    rfl

/-- What the group says about the name and the message of its job has no line feed. -/
def Spec.PlainJob (g : List (Bytes × Attr)) : Prop :=
  ∀ s, (Printer.Spec.given g (ascii "job-name") = some (.str s) ∨ Printer.Spec.given g (ascii "job-printer-state-message") = some (.str s)) → (10 : UInt8) ∉ s

theorem oneLine_of {i : JobInfo} {g : List (Bytes × Attr)} (h : Describes i g) (hp : Spec.PlainJob g) : Spec.OneLine i := by
  obtain ⟨_, h2, _, h4⟩ := h
  constructor
  · cases hn : Printer.Spec.given g (ascii "job-name") with
    | none => rw [hn] at h2; simp only [Option.getD_none, Value.str.injEq] at h2; rw [← h2]; simp
    | some v => rw [hn] at h2; exact hp _ (.inl (by rw [hn]; exact congrArg some h2))
  · cases hn : Printer.Spec.given g (ascii "job-printer-state-message") with
    | none => rw [hn] at h4; simp only [Option.getD_none, Value.str.injEq] at h4; rw [← h4]; simp
    | some v => rw [hn] at h4; exact hp _ (.inr (by rw [hn]; exact congrArg some h4))

theorem oneLine_all {l : List JobInfo} {gs : List (List (Bytes × Attr))} (h : All2 Describes l gs) (hp : ∀ g ∈ gs, Spec.PlainJob g) :
    ∀ i ∈ l, Spec.OneLine i := by
  induction h with
  | nil => simp
  | cons h _ ih =>
    simp only [List.mem_cons, forall_eq_or_imp] at hp ⊢
    exact ⟨oneLine_of h hp.1, ih hp.2⟩

/-- C106: the text that `get-jobs` shows can be read back; it tells of the jobs that the printer has described, in their order and with all that is kept
about them, if no name and no message has a line feed. -/
theorem C106_jobs_partial (w : World) (args : List Bytes) (uses : List Use) (addr : Bytes) (ha : Accounts [helpOpt, verboseOpt] [addrArg] args uses [addr])
    (hh : lastUse uses [ascii "-h", ascii "--help"] = none) :
    ∃ k, main w (ascii "get-jobs" :: args) = afterAttrs w addr k ∧ ∀ p, Fits p →
      ∀ gs maj min status rid, w.reply = .ok (response maj min status rid gs) → (∀ g ∈ gs, RecvOk g) →
        (∀ g ∈ ofTag 2 gs, JobTyped g ∧ PlainJob g) →
        ∃ l jobs, (k p).out = .ok { code := 0, store := w.store, shown := .jobs l } ∧ jobsOf (lines (jobsText l)) = some jobs ∧ All2 Describes jobs (ofTag 2 gs) := by
  obtain ⟨k, hk, h⟩ := C74_jobs_partial w args uses addr ha hh
  refine ⟨k, hk, fun p hf gs maj min status rid hr hg hj => ?_⟩
  obtain ⟨l, h1, h2⟩ := ((h p hf).2.2 gs maj min status rid hr hg).1 (fun g hm => (hj g hm).1)
  exact ⟨l, l, h1, lines_jobsText l (oneLine_all h2 (fun g hm => (hj g hm).2)), h2⟩

/-- C106: lists of jobs without line feeds that are shown alike are the same. -/
theorem C106_alike (l l' : List JobInfo) (h : ∀ i ∈ l, OneLine i) (h' : ∀ i ∈ l', OneLine i) (he : jobsText l = jobsText l') : l = l' := by
  have := lines_jobsText l h
  rw [he, lines_jobsText l' h'] at this
  exact (Option.some.inj this).symm

/-- A job whose name has line feeds. -/
def fakeJob : List (Bytes × Attr) :=
  [(ascii "job-id", (0x21, .int 1)), (ascii "job-name", (0x42, .str (ascii "a\nState: 3\n2: b"))), (ascii "job-state", (0x23, .int 5))]

theorem fakeJob_recv : RecvOk (2, fakeJob) := by
  refine ⟨.inr (.inl rfl), fun n a h => ?_⟩
  simp only [fakeJob, List.mem_cons, List.not_mem_nil, or_false, Prod.mk.injEq] at h
  rcases h with ⟨rfl, rfl⟩ | ⟨rfl, rfl⟩ | ⟨rfl, rfl⟩ <;>
    exact ⟨by decide, by decide, by simp only [WellTyped, PlainOk, InInt32]; decide⟩

theorem fakeJob_typed : JobTyped fakeJob := by
  have h1 : Printer.Spec.given fakeJob (ascii "job-id") = some (.int 1) := by decide +kernel
  have h2 : Printer.Spec.given fakeJob (ascii "job-name") = some (.str (ascii "a\nState: 3\n2: b")) := by decide +kernel
  have h3 : Printer.Spec.given fakeJob (ascii "job-state") = some (.int 5) := by decide +kernel
  have h4 : Printer.Spec.given fakeJob (ascii "job-printer-state-message") = none := by decide +kernel
  refine ⟨?_, ?_, ?_, ?_⟩ <;> intro v hv
  · rw [h1] at hv; cases hv; exact ⟨_, rfl⟩
  · rw [h2] at hv; cases hv; exact ⟨_, rfl⟩
  · rw [h3] at hv; cases hv; exact ⟨_, rfl⟩
  · rw [h4] at hv; cases hv

/-- C106 is false in general: what `get-jobs` shows for one job whose name has line feeds is what it shows for two jobs. -/
theorem C106_false (w : World) (args : List Bytes) (uses : List Use) (addr : Bytes) (ha : Accounts [helpOpt, verboseOpt] [addrArg] args uses [addr])
    (hh : lastUse uses [ascii "-h", ascii "--help"] = none) :
    ∃ k, main w (ascii "get-jobs" :: args) = afterAttrs w addr k ∧ ∀ p, Fits p →
      ∃ gs, (∀ g ∈ gs, RecvOk g) ∧ (ofTag 2 gs).length = 1 ∧ ∀ maj min status rid, w.reply = .ok (response maj min status rid gs) →
        ∃ l a b, (k p).out = .ok { code := 0, store := w.store, shown := .jobs l } ∧ l.length = 1 ∧ jobsText l = jobsText [a, b] ∧
          jobsOf (lines (jobsText l)) = some [a, b] := by
  obtain ⟨k, hk, h⟩ := C74_jobs_partial w args uses addr ha hh
  have h0 : ofTag 2 [((2 : UInt8), fakeJob)] = [fakeJob] := rfl
  refine ⟨k, hk, fun p hf => ⟨[(2, fakeJob)], by simpa using fakeJob_recv, by rw [h0]; rfl, fun maj min status rid hr => ?_⟩⟩
  obtain ⟨l, h1, h2⟩ := ((h p hf).2.2 _ maj min status rid hr (by simpa using fakeJob_recv)).1 (by rw [h0]; simpa using fakeJob_typed)
  rw [h0] at h2
  obtain ⟨i, rfl, hi⟩ : ∃ i, l = [i] ∧ Describes i fakeJob := by
    cases h2 with
    | cons hd ht => cases ht; exact ⟨_, rfl, hd⟩
  have he : i = ⟨1, ascii "a\nState: 3\n2: b", 5, []⟩ := by
    obtain ⟨e1, e2, e3, e4⟩ := hi
    have h1 : Printer.Spec.given fakeJob (ascii "job-id") = some (.int 1) := by decide +kernel
    have h2 : Printer.Spec.given fakeJob (ascii "job-name") = some (.str (ascii "a\nState: 3\n2: b")) := by decide +kernel
    have h3 : Printer.Spec.given fakeJob (ascii "job-state") = some (.int 5) := by decide +kernel
    have h4 : Printer.Spec.given fakeJob (ascii "job-printer-state-message") = none := by decide +kernel
    rw [h1] at e1; rw [h2] at e2; rw [h3] at e3; rw [h4] at e4
    obtain ⟨a, b, c, d⟩ := i
    simp only [Option.getD_some, Option.getD_none, Value.int.injEq, Value.str.injEq] at e1 e2 e3 e4
    subst e1 e2 e3 e4
    rfl
  subst he
  refine ⟨_, ⟨1, ascii "a", 3, []⟩, ⟨2, ascii "b", 5, []⟩, h1, rfl, ?_, ?_⟩ <;> decide +kernel

/-- A job with a message and a negative number, and one without a name. -/
example : OneLine ⟨-7, ascii "a: (b)", 5, ascii "paused (3)"⟩ ∧ OneLine ⟨8, [], 9, []⟩ ∧
    jobsText [⟨-7, ascii "a: (b)", 5, ascii "paused (3)"⟩, ⟨8, [], 9, []⟩] = ascii "-7: a: (b)\nState: 5 (paused (3))\n8: \nState: 9\n" := by
  refine ⟨⟨by decide +kernel, by decide +kernel⟩, ⟨by decide, by decide⟩, by decide +kernel⟩

/-- A command line and a reply that meet the hypotheses of `C106_jobs_partial`. -/
example : Accounts [helpOpt, verboseOpt] [addrArg] [ascii "http://p"] [] [ascii "http://p"] ∧ lastUse [] [ascii "-h", ascii "--help"] = none ∧
    RecvOk (2, [fakeJob[0], fakeJob[2]]) ∧ PlainJob [fakeJob[0], fakeJob[2]] := by
  refine ⟨⟨by decide +kernel, nofun, ?_, ?_, by decide +kernel⟩, rfl, ⟨fakeJob_recv.1, fun n a h => ?_⟩, fun s h => ?_⟩
  · intro a ha
    cases ha
    have : ∀ o ∈ [helpOpt, verboseOpt].map (·.names), ascii "http://p" ∉ o := by decide +kernel
    intro o ho
    exact this o.names (List.mem_map_of_mem ho)
  · intro i p hp hi
    match i, hp, hi with
    | 0, _, hi => simp at hi
    | i + 1, hp, _ => simp at hp
  · refine fakeJob_recv.2 n a ?_
    simp only [List.mem_cons, List.not_mem_nil, or_false] at h
    rcases h with h | h <;> rw [h] <;> exact List.getElem_mem _
  · have h1 : Printer.Spec.given [fakeJob[0], fakeJob[2]] (ascii "job-name") = none := by decide +kernel
    have h2 : Printer.Spec.given [fakeJob[0], fakeJob[2]] (ascii "job-printer-state-message") = none := by decide +kernel
    rw [h1, h2] at h
    rcases h with h | h <;> cases h

end Verif.Client
