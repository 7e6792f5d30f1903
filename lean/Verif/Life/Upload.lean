import Verif.Life.Spec

/-!
# The objects of the libraries in a transfer (C125)

`CurlRequester` and the classes made from it have a handle of curl, a list of headers, and the state of zlib (curlrequester.h 69-72). The worker uses them from another thread.
-/

namespace Verif.Life.Upload

/-! ## Model -/

/-- The handle, the list of headers, and the states of zlib in the order in which they are made -/
inductive Obj where
  | curl | headers | zlib (n : Nat)
  deriving DecidableEq, Repr

abbrev Tr := List (Ev Obj)

/-- `enum class Compression`, curlrequester.h 16-21 -/
inductive Compression where
  | None | Deflate | Gzip
  deriving DecidableEq, Repr

/-- The classes that can be made -/
inductive Class where
  | poster | streamer | getter
  deriving DecidableEq, Repr

/-- What is done with it, by its owner and by the worker, in any order in time -/
inductive Op where
  /-- `write`, curlrequester.cpp 69-84; whether it has been taken -/
  | write (taken : Bool)
  | setCompression (c : Compression)
  | await
  /-- the worker uses the handle with its headers: a part of `curl_easy_perform` -/
  | perform
  /-- the worker asks for bytes: `requestWrite` -/
  | request
  deriving DecidableEq, Repr

/-- The members that decide about the objects -/
structure St where
  /-- the thread has been started and not been joined -/
  running : Bool
  next : Compression
  now : Compression
  /-- how many times `deflateInit2` has been called -/
  states : Nat
  deriving DecidableEq, Repr

/-- The constructors, curlrequester.cpp 9-29, 159-173, 188-207. `USER_AGENT` always is defined (curlrequester.h 12-14), so that the first `curl_slist_append` makes the list; the later ones answer
the same list. `curl_easy_init` and `curl_slist_append` are taken to succeed. -/
def construct (ignoreSsl : Bool) : Class → Tr × St
  | .getter =>
    (.made .curl :: List.replicate (if ignoreSsl then 7 else 4) (.used .curl) ++ [.made .headers] ++ [.used .curl, .used .headers],
      ⟨true, .None, .None, 0⟩)
  | c =>
    (.made .curl :: List.replicate (if ignoreSsl then 7 else 4) (.used .curl) ++ [.made .headers] ++ List.replicate 4 (.used .curl) ++ List.replicate 3 (.used .headers) ++
      (if c = .poster then [.used .curl] else [.used .headers]) ++ [.used .curl, .used .headers],
      ⟨true, .None, .None, 0⟩)

/-- One step; none: it throws. Steps of the worker only happen while it is there (lthread.h). -/
def op (s : St) : Op → Tr × Option St
  | .write taken => ([], some (if taken then { s with now := s.next } else s))
  | .setCompression c =>
    if s.next ≠ .None then ([], none)
    else ([.made (.zlib s.states)], some { s with next := c, states := s.states + 1 })
  | .await => ([], some { s with running := false })
  | .perform => (if s.running then [.used .curl, .used .headers] else [], some s)
  | .request => (if s.running ∧ s.now ≠ .None then [.used (.zlib (s.states - 1))] else [], some s)

/-- The steps, until one throws -/
def ops : List Op → St → Tr × St
  | [], s => ([], s)
  | o :: r, s =>
    match op s o with
    | (t, none) => (t, s)
    | (t, some s') => (t ++ (ops r s').1, (ops r s').2)

/-- The destructors, curlrequester.cpp 31-36, 64-67: the worker is awaited, then the list and the handle are given back. There is no `deflateEnd`. -/
def destruct (s : St) : Tr × St := ([.freed .headers, .freed .curl], { s with running := false })

/-- The life of a transfer: `late` are steps of the worker at a time when the destructor has been run. -/
def trace (c : Class) (ignoreSsl : Bool) (does late : List Op) : Tr :=
  let (t0, s0) := construct ignoreSsl c
  let (t1, s1) := ops does s0
  let (t2, s2) := destruct s1
  t0 ++ t1 ++ t2 ++ (ops (late.filter fun o => o = .perform ∨ o = .request) s2).1

/-- `IppPrinter::doPrint`, ippprinter.cpp 136-163: what is written first, the compression that the job asks for, then the blocks; and `await`, unless the conversion failed. -/
def doPrint (compression : String) (blocks : Nat) (failed : Bool) : List Op :=
  [.write true] ++ (if compression = "gzip" then [.setCompression .Gzip] else if compression = "deflate" then [.setCompression .Deflate] else []) ++
    List.replicate blocks (.write true) ++ (if failed then [] else [.await])

/-! ## Specification -/

/-- Nobody asks for a compression -/
def Plain (does : List Op) : Prop := ∀ c, Op.setCompression c ∉ does

/-! ## Proofs -/

theorem run_some {tr : Tr} {s s' : List Obj × List Obj} (h : run tr s = some s') (tr' : Tr) : run (tr ++ tr') s = run tr' s' := by
  rw [run_append, h]; rfl

theorem construct_run (b : Bool) (c : Class) : run (construct b c).1 ([], []) = some ([.headers, .curl], [.headers, .curl]) := by
  cases b <;> cases c <;> decide

theorem construct_st (b : Bool) (c : Class) : (construct b c).2 = ⟨true, .None, .None, 0⟩ := by
  cases c <;> rfl

/-- The states of zlib that there are -/
def zlibs : Nat → List Obj
  | 0 => []
  | n + 1 => .zlib n :: zlibs n

theorem mem_zlibs {n : Nat} {o : Obj} : o ∈ zlibs n ↔ ∃ m < n, o = .zlib m := by
  induction n with
  | zero => simp [zlibs]
  | succ n ih =>
    simp only [zlibs, List.mem_cons, ih]
    constructor
    · rintro (rfl | ⟨m, hm, rfl⟩)
      · exact ⟨n, Nat.lt_succ_self n, rfl⟩
      · exact ⟨m, Nat.lt_succ_of_lt hm, rfl⟩
    · rintro ⟨m, hm, rfl⟩
      rcases Nat.lt_succ_iff_lt_or_eq.mp hm with h | rfl
      · exact .inr ⟨m, h, rfl⟩
      · exact .inl rfl

/-- What goes with the members: a compression that is used has its state. -/
structure Ok (s : St) : Prop where
  next : s.next ≠ .None → 0 < s.states
  now : s.now ≠ .None → 0 < s.states

def objs (s : St) : List Obj × List Obj := (zlibs s.states ++ [.headers, .curl], zlibs s.states ++ [.headers, .curl])

theorem ops_run : ∀ (does : List Op) (s : St), Ok s → run (ops does s).1 (objs s) = some (objs (ops does s).2) ∧ Ok (ops does s).2 ∧ s.states ≤ (ops does s).2.states := by
  intro does
  induction does with
  | nil => intro s h; exact ⟨rfl, h, Nat.le_refl _⟩
  | cons o r ih =>
    intro s h
    cases o with
    | write taken =>
      have hs : Ok (if taken = true then { s with now := s.next } else s) := by
        cases taken
        · exact h
        · exact ⟨h.next, h.next⟩
      have := ih _ hs
      simp only [ops, op, List.nil_append]
      have he : objs (if taken = true then { s with now := s.next } else s) = objs s := by cases taken <;> rfl
      have hn : (if taken = true then { s with now := s.next } else s).states = s.states := by cases taken <;> rfl
      rw [he, hn] at this
      exact this
    | setCompression c =>
      by_cases hn : s.next ≠ .None
      · simp only [ops, op, if_pos hn]; exact ⟨rfl, h, Nat.le_refl _⟩
      · simp only [ops, op, if_neg hn]
        obtain ⟨h1, h2, h3⟩ := ih { s with next := c, states := s.states + 1 } ⟨fun _ => Nat.succ_pos _, fun _ => Nat.succ_pos _⟩
        refine ⟨?_, h2, Nat.le_trans (Nat.le_succ _) h3⟩
        rw [List.singleton_append]
        have hf : Obj.zlib s.states ∉ (objs s).2 := by
          simp only [objs, List.mem_append, mem_zlibs]
          rintro (⟨m, hm, he⟩ | he)
          · cases he; exact absurd hm (Nat.lt_irrefl _)
          · simp at he
        simp only [run, step, if_neg hf]
        exact h1
    | await =>
      simp only [ops, op, List.nil_append]
      exact ih { s with running := false } ⟨h.next, h.now⟩
    | perform =>
      obtain ⟨h1, h2, h3⟩ := ih s h
      refine ⟨?_, h2, h3⟩
      show run ((if s.running = true then [.used .curl, .used .headers] else []) ++ (ops r s).1) (objs s) = some (objs (ops r s).2)
      have : run (if s.running = true then [.used .curl, .used .headers] else []) (objs s) = some (objs s) := by
        cases s.running <;> simp [run, step, objs]
      rw [run_some this]; exact h1
    | request =>
      obtain ⟨h1, h2, h3⟩ := ih s h
      refine ⟨?_, h2, h3⟩
      show run ((if s.running = true ∧ s.now ≠ .None then [.used (.zlib (s.states - 1))] else []) ++ (ops r s).1) (objs s) = some (objs (ops r s).2)
      have : run (if s.running = true ∧ s.now ≠ .None then [.used (.zlib (s.states - 1))] else []) (objs s) = some (objs s) := by
        by_cases hc : s.running = true ∧ s.now ≠ .None
        · rw [if_pos hc]
          have hm : Obj.zlib (s.states - 1) ∈ (objs s).1 := by
            simp only [objs, List.mem_append, mem_zlibs]
            exact .inl ⟨s.states - 1, Nat.sub_lt (h.now hc.2) Nat.one_pos, rfl⟩
          simp [run, step, hm]
        · rw [if_neg hc]; rfl
      rw [run_some this]; exact h1

/-- When the thread has been joined, the worker does nothing more. -/
theorem late_nothing (late : List Op) : ∀ (s : St), s.running = false → (ops (late.filter fun o => o = .perform ∨ o = .request) s).1 = [] := by
  induction late with
  | nil => intro s _; rfl
  | cons o r ih =>
    intro s h
    cases o <;> simp [ops, op, h] <;> simpa using ih s h

theorem trace_eq (c : Class) (b : Bool) (does late : List Op) :
    trace c b does late = (construct b c).1 ++ (ops does ⟨true, .None, .None, 0⟩).1 ++ [.freed .headers, .freed .curl] := by
  unfold trace
  simp only [construct_st, destruct]
  rw [late_nothing late _ rfl, List.append_nil]

theorem trace_run (c : Class) (b : Bool) (does late : List Op) :
    run (trace c b does late) ([], []) =
      some (zlibs (ops does ⟨true, .None, .None, 0⟩).2.states, (objs (ops does ⟨true, .None, .None, 0⟩).2).2) := by
  rw [trace_eq, List.append_assoc, run_some (construct_run b c)]
  have hx := ops_run does ⟨true, .None, .None, 0⟩ ⟨fun h => absurd rfl h, fun h => absurd rfl h⟩
  rw [show ([Obj.headers, .curl], [Obj.headers, .curl]) = objs ⟨true, .None, .None, 0⟩ from rfl, run_some hx.1]
  have h1 : Obj.headers ∉ zlibs (ops does ⟨true, .None, .None, 0⟩).2.states := by simp [mem_zlibs]
  have h2 : Obj.curl ∉ zlibs (ops does ⟨true, .None, .None, 0⟩).2.states := by simp [mem_zlibs]
  simp [run, step, objs, List.erase_append, h1, h2]

theorem plain_states : ∀ (does : List Op) (s : St), Plain does → (ops does s).2.states = s.states := by
  intro does
  induction does with
  | nil => intro s _; rfl
  | cons o r ih =>
    intro s h
    have hr : Plain r := fun c hm => h c (List.mem_cons_of_mem _ hm)
    cases o with
    | write taken =>
      simp only [ops, op]
      rw [ih _ hr]
      cases taken <;> rfl
    | setCompression c => exact absurd List.mem_cons_self (h c)
    | await => simp only [ops, op]; rw [ih _ hr]
    | perform => simp only [ops, op]; rw [ih _ hr]
    | request => simp only [ops, op]; rw [ih _ hr]

theorem asked_states : ∀ (does : List Op) (s : St), Ok s → s.next = .None → (∃ c, Op.setCompression c ∈ does) → 0 < (ops does s).2.states := by
  intro does
  induction does with
  | nil => intro s _ _ h; obtain ⟨c, h⟩ := h; cases h
  | cons o r ih =>
    intro s hk hn h
    have hr : (∀ c, o ≠ .setCompression c) → ∃ c, Op.setCompression c ∈ r := by
      intro ho
      obtain ⟨c, h⟩ := h
      exact ⟨c, (List.mem_cons.mp h).resolve_left (Ne.symm (ho c))⟩
    cases o with
    | write taken =>
      simp only [ops, op]
      cases taken
      · exact ih s hk hn (hr nofun)
      · exact ih _ ⟨hk.next, hk.next⟩ hn (hr nofun)
    | setCompression c =>
      simp only [ops, op, if_neg (not_not_intro hn)]
      exact Nat.lt_of_lt_of_le (Nat.succ_pos _) (ops_run r { s with next := c, states := s.states + 1 } ⟨fun _ => Nat.succ_pos _, fun _ => Nat.succ_pos _⟩).2.2
    | await => exact ih { s with running := false } ⟨hk.next, hk.now⟩ hn (hr nofun)
    | perform => exact ih s hk hn (hr nofun)
    | request => exact ih s hk hn (hr nofun)

/-- What is not given back -/
theorem not_returned {tr : Tr} {s : List Obj × List Obj} {o : Obj} (h : run tr ([], []) = some s) (ho : o ∈ s.1) : ¬ Returned tr := by
  intro hr
  obtain ⟨k, hk⟩ := (fits_run h).live o ho
  rcases hr o with h0 | ⟨j, hj⟩
  · rw [hk] at h0; cases h0
  · rw [hk] at hj
    have hm : Ev.freed o ∈ Ev.made o :: List.replicate k (Ev.used o) := by rw [hj]; simp
    simp [List.mem_replicate] at hm

/-- **C125**, a transfer: of each object that was obtained from curl or zlib, in any order of what the owner and the worker do, it is true that it is made once, used only then, and given back
once, exactly if nobody asked for a compression. The worker in particular does not use the handle or the headers after they are given back. -/
theorem C125_upload_partial (c : Class) (ignoreSsl : Bool) (does late : List Op) : Returned (trace c ignoreSsl does late) ↔ Plain does := by
  have h := trace_run c ignoreSsl does late
  constructor
  · intro hr d hd
    have hp := asked_states does ⟨true, .None, .None, 0⟩ ⟨fun h => absurd rfl h, fun h => absurd rfl h⟩ rfl ⟨d, hd⟩
    refine not_returned (o := .zlib 0) h ?_ hr
    exact mem_zlibs.mpr ⟨0, hp, rfl⟩
  · intro hp
    rw [plain_states does _ hp] at h
    exact returned_of_run h

/-- The handle and the headers are given back in any case, also with a compression. -/
theorem C125_handle (c : Class) (ignoreSsl : Bool) (does late : List Op) : ∀ o, o = .curl ∨ o = .headers →
    ∃ k, about o (trace c ignoreSsl does late) = .made o :: (List.replicate k (.used o) ++ [.freed o]) := by
  intro o ho
  have f := fits_run (trace_run c ignoreSsl does late)
  refine f.gone o ?_ ?_
  · rcases ho with rfl | rfl <;> simp [objs]
  · rcases ho with rfl | rfl <;> simp [mem_zlibs]

/-- What zlib made is used only after it was made, and it never is given back. -/
theorem C125_zlib (c : Class) (ignoreSsl : Bool) (does late : List Op) (n : Nat) :
    about (.zlib n) (trace c ignoreSsl does late) = [] ∨ ∃ k, about (.zlib n) (trace c ignoreSsl does late) = .made (.zlib n) :: List.replicate k (.used (.zlib n)) := by
  have f := fits_run (trace_run c ignoreSsl does late)
  by_cases hn : Obj.zlib n ∈ zlibs (ops does ⟨true, .None, .None, 0⟩).2.states
  · exact .inr (f.live _ hn)
  · refine .inl (f.never _ ?_)
    simp only [objs, List.mem_append, not_or]
    exact ⟨hn, by simp⟩

/-- A print job gives everything back exactly if its compression is neither gzip nor deflate. -/
theorem C125_job_partial (compression : String) (blocks : Nat) (failed ignoreSsl : Bool) (does late : List Op)
    (hd : does.filter (fun o => o ≠ .perform ∧ o ≠ .request) = doPrint compression blocks failed) :
    Returned (trace .streamer ignoreSsl does late) ↔ compression ≠ "gzip" ∧ compression ≠ "deflate" := by
  rw [C125_upload_partial]
  have hiff : Plain does ↔ Plain (doPrint compression blocks failed) := by
    rw [← hd]
    constructor
    · intro h c hm; exact h c (List.mem_filter.mp hm).1
    · intro h c hm; exact h c (List.mem_filter.mpr ⟨hm, by simp⟩)
  rw [hiff]
  unfold doPrint Plain
  by_cases h1 : compression = "gzip"
  · rw [if_pos h1]
    exact ⟨fun h => absurd (by simp) (h .Gzip), fun h => absurd h1 h.1⟩
  · rw [if_neg h1]
    by_cases h2 : compression = "deflate"
    · rw [if_pos h2]
      exact ⟨fun h => absurd (by simp) (h .Deflate), fun h => absurd h2 h.2⟩
    · rw [if_neg h2]
      refine ⟨fun _ => ⟨h1, h2⟩, fun _ c hm => ?_⟩
      cases failed <;> simp [List.mem_replicate] at hm

/-- **C125 is false**: a job that is printed with gzip leaves the state of zlib behind. -/
theorem C125_false : ¬ ∀ (c : Class) (ignoreSsl : Bool) (does late : List Op), Returned (trace c ignoreSsl does late) := by
  intro h
  have := (C125_upload_partial .streamer true (doPrint "gzip" 2 false) []).mp (h .streamer true (doPrint "gzip" 2 false) []) .Gzip
  exact this (by decide)

/-- A job of two blocks with gzip, whose worker asks for bytes three times: the hypothesis of `C125_job_partial`, and what happens to the state of zlib -/
example :
    let does : List Op := [.perform, .write true, .request, .setCompression .Gzip, .write true, .request, .write true, .request, .await, .perform]
    does.filter (fun o => o ≠ .perform ∧ o ≠ .request) = doPrint "gzip" 2 false ∧
      about (.zlib 0) (trace .streamer true does [.perform]) = [.made (.zlib 0), .used (.zlib 0), .used (.zlib 0)] := by
  decide

/-- One without compression -/
example : Plain (doPrint "none" 2 false) := by
  intro c h
  cases c <;> revert h <;> decide

end Verif.Life.Upload
