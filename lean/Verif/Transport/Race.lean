import Verif.Transport.Inv

/-!
# Data races in the streaming upload (lib/curlrequester.cpp, lib/lthread.h); property C103

The steps of `Transport/Model.lean` with what each of them reads and writes, and how it synchronises. The calls of the constructor, and the start of the thread, come before all
of this. A step that reads `_complete` orders nothing, unless we take `_complete` for an atomic variable.
-/

namespace Verif.Transport

variable {Z : Type} {c : Codec Z}

/-! ## Model -/

inductive Thread where
  | writer | network
  deriving DecidableEq, Repr

/-- What both threads can reach: `_data`, `_compression`, `_nextCompression`, `_done`, `_reading`, `_zstrm`, `_result` (with `_resultMsg`), and `_complete` of lthread.h. -/
inductive Var where
  | data | comp | next | done | reading | zstrm | result | complete
  deriving DecidableEq, Repr

inductive Mutex where
  | canWrite | canRead
  deriving DecidableEq, Repr

/-- What a step does: by which thread, what it reads (false) and writes (true), which mutex it gets or sets free, whether it sees `_complete` set, sets it, or joins the thread. -/
structure Did where
  thread : Thread
  acc : List (Var × Bool) := []
  acquires : Option Mutex := none
  releases : Option Mutex := none
  sees : Bool := false
  ends : Bool := false
  joins : Bool := false
  deriving DecidableEq, Repr

/-- What the writer does from where it is. -/
def writerDid (s s' : St Z) : Did :=
  match s.w with
  | .idle => if s'.w = .idle then { thread := .writer, acc := [(.next, false), (.next, true), (.zstrm, true)] } else { thread := .writer } -- 134-157, or a call
  | .tryW _ => { thread := .writer, acquires := if s.canWrite then some .canWrite else none } -- 71
  | .chk _ => { thread := .writer, acc := [(.complete, false)], sees := s.complete } -- 73, lthread.h 31
  | .setData _ => { thread := .writer, acc := [(.data, true)] } -- 80
  | .setComp _ => { thread := .writer, acc := [(.next, false), (.comp, true)] } -- 81
  | .post _ => { thread := .writer, releases := some .canRead } -- 82
  | .aRun => { thread := .writer, acc := [(.complete, false)], sees := s.complete } -- 177
  | .aTry => { thread := .writer, acquires := if s.canWrite then some .canWrite else none } -- 177
  | .aChk => { thread := .writer, acc := [(.complete, false)], sees := s.complete } -- 177
  | .aDone => { thread := .writer, acc := [(.done, true)] } -- 182
  | .aData => { thread := .writer, acc := [(.data, true)] } -- 183
  | .aPost => { thread := .writer, releases := some .canRead } -- 184
  | .aJoin => { thread := .writer, acc := [(.result, false)], joins := true } -- 55-61, lthread.h 38

/-- What the network thread does from where it is. -/
def networkDid (s s' : St Z) : Did :=
  match s.r with
  | .outside => if s'.r = .exiting then { thread := .network, acc := [(.result, true)] } else { thread := .network } -- 48-49, or a call
  | .enter _ => { thread := .network, acc := [(.reading, false)], acquires := if s.reading then none else some .canRead } -- 88-90
  | .mark _ => { thread := .network, acc := [(.reading, true)] } -- 91
  | .produce _ => -- 94-115
    { thread := .network, acc := [(.data, true), (.comp, false)] ++ (if s.comp ≠ .none then [(.zstrm, true), (.done, false)] else []) }
  | .check _ _ => -- 117-121
    { thread := .network, acc := [(.done, false)] ++ (if s.done then [] else [(.data, false)] ++ (if s.data = [] then [(.reading, true)] else [])) }
  | .unlock _ _ => { thread := .network, releases := some .canWrite } -- 122
  | .again _ _ => { thread := .network } -- 124
  | .ret _ => { thread := .network } -- 131
  | .exiting => { thread := .network, acc := [(.complete, true)], ends := true } -- lthread.h 26
  | .ended => { thread := .network }

/-- What a step does. Every step of the network thread moves it, and no step of the writer does. -/
def did (s s' : St Z) : Did := if s'.r = s.r then writerDid s s' else networkDid s s'

/-- The executions, with what the steps did in order. -/
inductive Run (c : Codec Z) : List Did → St Z → Prop
  | start (z : Z) : Run c [] (start z)
  | step {l : List Did} {s s' : St Z} {e : Ev} : Run c l s → Step c e s s' → Run c (l ++ [did s s']) s'

/-! ## Specification -/

namespace Spec

/-- The order that the language guarantees between the steps: within a thread, from the release of a mutex to getting it later, from the end of a thread to joining it; and, if `_complete` is
taken for an atomic variable, from setting it to seeing it set. -/
inductive Before (atomic : Bool) (l : List Did) : Nat → Nat → Prop
  | order {i j : Nat} {a b : Did} : i < j → l[i]? = some a → l[j]? = some b → a.thread = b.thread → Before atomic l i j
  | lock {i j : Nat} {a b : Did} {m : Mutex} : i < j → l[i]? = some a → l[j]? = some b → a.releases = some m → b.acquires = some m → Before atomic l i j
  | join {i j : Nat} {a b : Did} : i < j → l[i]? = some a → l[j]? = some b → a.thread = .network → b.joins = true → Before atomic l i j
  | seen {i j : Nat} {a b : Did} : atomic = true → i < j → l[i]? = some a → l[j]? = some b → a.ends = true → b.sees = true → Before atomic l i j
  | trans {i j k : Nat} : Before atomic l i j → Before atomic l j k → Before atomic l i k

/-- Step `i` accesses the variable. -/
def Access (l : List Did) (i : Nat) (t : Thread) (v : Var) (write : Bool) : Prop := ∃ d, l[i]? = some d ∧ d.thread = t ∧ (v, write) ∈ d.acc

/-- Two accesses by different threads to one variable, at least one of them a write, and nothing that puts them in order. -/
def Race (atomic : Bool) (l : List Did) (v : Var) : Prop :=
  ∃ i j t t' b b', i < j ∧ t ≠ t' ∧ Access l i t v b ∧ Access l j t' v b' ∧ (b = true ∨ b' = true) ∧ ¬ Before atomic l i j

end Spec

open Spec

/-! ## Proofs -/

/-- What is protected by the two mutexes. -/
def Var.shared : Var → Bool
  | .data | .comp | .done => true
  | _ => false

theorem getElem?_snoc {α : Type} {l : List α} {i : Nat} {a x : α} (h : l[i]? = some a) : (l ++ [x])[i]? = some a := by
  rw [List.getElem?_append_left]
  · exact h
  · exact (List.getElem?_eq_some_iff.mp h).1

theorem getElem?_lt {α : Type} {l : List α} {i : Nat} {a : α} (h : l[i]? = some a) : i < l.length := (List.getElem?_eq_some_iff.mp h).1

theorem Spec.Before.mono {at_ : Bool} {l : List Did} {i j : Nat} (x : Did) (h : Before at_ l i j) : Before at_ (l ++ [x]) i j := by
  induction h with
  | order h1 h2 h3 h4 => exact .order h1 (getElem?_snoc h2) (getElem?_snoc h3) h4
  | lock h1 h2 h3 h4 h5 => exact .lock h1 (getElem?_snoc h2) (getElem?_snoc h3) h4 h5
  | join h1 h2 h3 h4 h5 => exact .join h1 (getElem?_snoc h2) (getElem?_snoc h3) h4 h5
  | seen h0 h1 h2 h3 h4 h5 => exact .seen h0 h1 (getElem?_snoc h2) (getElem?_snoc h3) h4 h5
  | trans _ _ h1 h2 => exact .trans h1 h2

theorem last_is {α : Type} (l : List α) (x : α) : (l ++ [x])[l.length]? = some x := by simp

theorem Spec.Access.mono {l : List Did} {i : Nat} {t : Thread} {v : Var} {b : Bool} (x : Did) (h : Access l i t v b) : Access (l ++ [x]) i t v b := by
  obtain ⟨d, h1, h2⟩ := h
  exact ⟨d, getElem?_snoc h1, h2⟩

theorem Spec.Access.split {l : List Did} {i : Nat} {t : Thread} {v : Var} {b : Bool} {x : Did} (h : Access (l ++ [x]) i t v b) :
    Access l i t v b ∨ i = l.length ∧ x.thread = t ∧ (v, b) ∈ x.acc := by
  obtain ⟨d, h1, h2⟩ := h
  rw [List.getElem?_append] at h1
  split at h1
  · exact .inl ⟨d, h1, h2⟩
  · right
    have := getElem?_lt h1
    simp at this
    have hi : i = l.length := by omega
    subst hi
    simp at h1
    subst h1
    exact ⟨rfl, h2⟩

theorem Spec.Access.lt {l : List Did} {i : Nat} {t : Thread} {v : Var} {b : Bool} (h : Access l i t v b) : i < l.length := by
  obtain ⟨d, h1, -⟩ := h
  exact getElem?_lt h1

/-! ### The steps -/

/-- What the steps of the writer do. -/
structure ByWriter (s s' : St Z) (x : Did) : Prop where
  thread : x.thread = .writer
  r : s'.r = s.r
  reading : s'.reading = s.reading
  complete : s'.complete = s.complete
  canWrite : s'.canWrite = true → s.canWrite = true
  shared : ∀ v b, (v, b) ∈ x.acc → v.shared = true → s.w.holds = true ∧ s'.canRead = s.canRead
  holds : s'.w.holds = true → s.w.holds = true ∨ s.canWrite = true ∧ x.acquires = some .canWrite ∨ s.complete = true ∧ x.sees = true
  canRead : s'.canRead = true → s.canRead = true ∨ x.releases = some .canRead
  zstrm : ∀ b, (Var.zstrm, b) ∈ x.acc → s.next = .none
  comp : s'.comp = s.comp ∨ s'.comp = s.next ∧ s'.next = s.next ∧ (Var.comp, true) ∈ x.acc ∧ ∀ b, (Var.zstrm, b) ∉ x.acc
  next : s'.next = s.next ∨ s.next = .none
  result : ∀ b, (Var.result, b) ∈ x.acc → s.r = .ended ∧ x.joins = true
  reads : ∀ b, (Var.reading, b) ∉ x.acc

/-- What the steps of the network thread do. -/
structure ByNetwork (s s' : St Z) (x : Did) : Prop where
  thread : x.thread = .network
  w : s'.w = s.w
  comp : s'.comp = s.comp
  next : s'.next = s.next
  live : s'.r.live = true → s.r.live = true
  moves : s.r ≠ .ended
  canWrite : s'.canWrite = true → s.canWrite = true ∨ x.releases = some .canWrite
  canRead : s'.canRead = true → s.canRead = true
  shared : ∀ v b, (v, b) ∈ x.acc → v.shared = true → (∃ n, s.r = .produce n) ∨ ∃ n out, s.r = .check n out
  same : ∀ v b, (v, b) ∈ x.acc → v.shared = true → s'.canWrite = s.canWrite
  holds : s'.r.live = true → s'.r.holds s'.reading = true → s.r.holds s.reading = true ∨ s.canRead = true ∧ x.acquires = some .canRead
  zstrm : ∀ b, (Var.zstrm, b) ∈ x.acc → s.comp ≠ .none
  zcomp : ∀ b, (Var.zstrm, b) ∈ x.acc → ∃ n, s.r = .produce n
  next' : ∀ b, (Var.next, b) ∉ x.acc
  result : ∀ b, (Var.result, b) ∈ x.acc → s.r.live = true
  complete : s'.complete = true → s.complete = true ∨ x.ends = true ∧ s.r = .exiting

theorem step_kind {e : Ev} {s s' : St Z} (hi : Inv s) (h : Step c e s s') : ByWriter s s' (did s s') ∨ ByNetwork s s' (did s s') := by
  have hr := hi.reading
  clear hi
  obtain ⟨cw, cr, rd, dn, cp, dt, cm, nx, z, w, r⟩ := s
  cases h
  case callWrite | callAwait | lockOk | lockFail | chkDead | chkAlive | setData | setComp | post | runDead | runAlive | tryOk | tryFail |
      againDead | againAlive | aDone | aData | aPost | setCompression | aJoin =>
    clear hr
    left
    simp only at * <;> subst_vars
    constructor <;> simp [did, writerDid, WPos.holds, Var.shared] <;> (try (intro v; cases v <;> simp))
  all_goals
    right
    simp only at * <;> subst_vars
    constructor <;> simp [did, networkDid, RPos.live, RPos.holds] <;> (try (intro v; cases v <;> simp_all [Var.shared])) <;> (try split) <;> (try simp_all [Var.shared, RPos.readingIs])

/-! ### The order between the threads -/

/-- The step accesses what the mutexes protect. -/
def Touches (l : List Did) (i : Nat) (t : Thread) : Prop := ∃ v b, v.shared = true ∧ Access l i t v b

theorem Touches.split {l : List Did} {i : Nat} {t : Thread} {x : Did} (h : Touches (l ++ [x]) i t) :
    Touches l i t ∨ i = l.length ∧ x.thread = t ∧ ∃ v b, v.shared = true ∧ (v, b) ∈ x.acc := by
  obtain ⟨v, b, hv, h⟩ := h
  rcases h.split with h | ⟨h1, h2, h3⟩
  · exact .inl ⟨v, b, hv, h⟩
  · exact .inr ⟨h1, h2, v, b, hv, h3⟩

/-- The step comes before a step of this kind. -/
def Known (l : List Did) (i : Nat) (p : Did → Prop) : Prop := ∃ k d, l[k]? = some d ∧ p d ∧ Before true l i k

theorem Known.mono {l : List Did} {i : Nat} {p : Did → Prop} (x : Did) (h : Known l i p) : Known (l ++ [x]) i p := by
  obtain ⟨k, d, h1, h2, h3⟩ := h
  exact ⟨k, d, getElem?_snoc h1, h2, h3.mono x⟩

/-- From a step of a kind that is ordered with the last one to the last one. -/
theorem Known.last {l : List Did} {i : Nat} {p : Did → Prop} {x : Did} (h : Known l i p)
    (hx : ∀ k d, k < l.length → l[k]? = some d → p d → Before true (l ++ [x]) k l.length) : Before true (l ++ [x]) i l.length := by
  obtain ⟨k, d, h1, h2, h3⟩ := h
  exact (h3.mono x).trans (hx k d (getElem?_lt h1) h1 h2)

theorem Touches.order {l : List Did} {i : Nat} {t : Thread} {x : Did} (h : Touches l i t) (hx : x.thread = t) : Before true (l ++ [x]) i l.length := by
  obtain ⟨v, b, -, d, h1, h2, -⟩ := h
  exact .order (getElem?_lt h1) (getElem?_snoc h1) (last_is l x) (h2.trans hx.symm)

theorem Known.order {l : List Did} {i : Nat} {t : Thread} {x : Did} (h : Known l i (·.thread = t)) (hx : x.thread = t) : Before true (l ++ [x]) i l.length :=
  h.last fun _ _ hk h1 h2 => .order hk (getElem?_snoc h1) (last_is l x) (h2.trans hx.symm)

theorem Known.lock {l : List Did} {i : Nat} {m : Mutex} {x : Did} (h : Known l i (·.releases = some m)) (hx : x.acquires = some m) : Before true (l ++ [x]) i l.length :=
  h.last fun _ _ hk h1 h2 => .lock hk (getElem?_snoc h1) (last_is l x) h2 hx

theorem Known.seen {l : List Did} {i : Nat} {x : Did} (h : Known l i (·.ends = true)) (hx : x.sees = true) : Before true (l ++ [x]) i l.length :=
  h.last fun _ _ hk h1 h2 => .seen rfl hk (getElem?_snoc h1) (last_is l x) h2 hx

theorem known_last {l : List Did} {i : Nat} {p : Did → Prop} {x : Did} (hp : p x) (h : Before true (l ++ [x]) i l.length) : Known (l ++ [x]) i p := ⟨_, x, last_is l x, hp, h⟩

structure Ordered (l : List Did) (s : St Z) : Prop where
  inv : Inv s
  free : s.canWrite = true → ∀ i, Touches l i .network → Known l i (·.releases = some .canWrite)
  full : s.r.live = true → s.canRead = true → ∀ i, Touches l i .writer → Known l i (·.releases = some .canRead)
  writer : s.w.holds = true → ∀ i, Touches l i .network → Known l i (·.thread = .writer)
  network : s.r.live = true → s.r.holds s.reading = true → ∀ i, Touches l i .writer → Known l i (·.thread = .network)
  comp : s.comp ≠ .none → s.next ≠ .none
  zstrm : s.comp ≠ .none → ∃ q b, Access l q .writer .comp b ∧ ∀ i b, Access l i .writer .zstrm b → i < q
  unset : s.next = .none → ∀ i b, ¬ Access l i .network .zstrm b
  result : ∀ i b, Access l i .writer .result b → s.r = .ended
  own : ∀ i b, ¬ Access l i .network .next b ∧ ¬ Access l i .writer .reading b
  ended : s.complete = true → ∀ i, Touches l i .network → Known l i (·.ends = true)
  ok : ∀ v, v ≠ .complete → ¬ Race true l v

theorem ordered_start (z : Z) : Ordered [] (start z) := by
  have h0 : ∀ i t v b, ¬ Access [] i t v b := by
    rintro i t v b ⟨d, h, -⟩
    simp at h
  have h1 : ∀ i t, ¬ Touches [] i t := fun i t ⟨v, b, _, h⟩ => h0 _ _ _ _ h
  refine ⟨inv_start z, fun _ i h => absurd h (h1 _ _), fun _ _ i h => absurd h (h1 _ _), fun _ i h => absurd h (h1 _ _), fun _ _ i h => absurd h (h1 _ _), fun h => absurd rfl h,
    fun h => absurd rfl h, fun _ _ _ => h0 _ _ _ _, fun _ _ h => absurd h (h0 _ _ _ _), fun _ _ => ⟨h0 _ _ _ _, h0 _ _ _ _⟩, fun _ i h => absurd h (h1 _ _), ?_⟩
  rintro v - ⟨i, j, t, t', b, b', -, -, h, -⟩
  exact h0 _ _ _ _ h

theorem race_split {l : List Did} {x : Did} {v : Var} (h : Race true (l ++ [x]) v) (hn : ¬ Race true l v) :
    ∃ i t b b', t ≠ x.thread ∧ Access l i t v b ∧ (v, b') ∈ x.acc ∧ ¬ Before true (l ++ [x]) i l.length := by
  obtain ⟨i, j, t, t', b, b', hij, ht, h1, h2, hb, hno⟩ := h
  rcases h2.split with h2 | ⟨rfl, rfl, h3⟩
  · exfalso
    rcases h1.split with h1 | ⟨rfl, -⟩
    · exact hn ⟨i, j, t, t', b, b', hij, ht, h1, h2, hb, fun h => hno (h.mono x)⟩
    · have := h2.lt
      omega
  · rcases h1.split with h1 | ⟨rfl, -⟩
    · exact ⟨i, t, b, b', ht, h1, h3, hno⟩
    · omega

theorem ordered_writer {e : Ev} {l : List Did} {s s' : St Z} {x : Did} (ho : Ordered l s) (h : Step c e s s') (hx : ByWriter s s' x) : Ordered (l ++ [x]) s' := by
  have notNet : ∀ {i}, Touches (l ++ [x]) i .network → Touches l i .network := fun h => by
    rcases h.split with h | ⟨-, h, -⟩
    · exact h
    · rw [hx.thread] at h; cases h
  have token := ho.inv.token
  refine ⟨inv_step ho.inv h, ?_, ?_, ?_, ?_, ?_, ?_, ?_, ?_, ?_, ?_, ?_⟩
  · intro hc i hi
    exact (ho.free (hx.canWrite hc) i (notNet hi)).mono x
  · intro hl hc i hi
    rw [hx.r] at hl
    rcases hi.split with hi | ⟨rfl, -, v, b, hv, hm⟩
    · rcases hx.canRead hc with hc | hc
      · exact (ho.full hl hc i hi).mono x
      · exact known_last hc (hi.order hx.thread)
    · obtain ⟨h1, h2⟩ := hx.shared v b hm hv
      rw [h2] at hc
      have := token hl
      rw [h1, hc] at this
      simp at this
      omega
  · intro hw i hi
    have hi := notNet hi
    rcases hx.holds hw with hw | ⟨h1, h2⟩ | ⟨h1, h2⟩
    · exact (ho.writer hw i hi).mono x
    · exact known_last hx.thread ((ho.free h1 i hi).lock h2)
    · exact known_last hx.thread ((ho.ended h1 i hi).seen h2)
  · intro hl hr i hi
    rw [hx.r] at hl
    rw [hx.r, hx.reading] at hr
    rcases hi.split with hi | ⟨rfl, -, v, b, hv, hm⟩
    · exact (ho.network hl hr i hi).mono x
    · obtain ⟨h1, h2⟩ := hx.shared v b hm hv
      have := token hl
      rw [h1, hr] at this
      simp at this
  · intro hc hn
    rcases hx.comp with h1 | ⟨h1, h2, -⟩
    · rw [h1] at hc
      rcases hx.next with h3 | h3
      · rw [h3] at hn; exact ho.comp hc hn
      · exact ho.comp hc h3
    · rw [h1, ← h2] at hc
      exact hc hn
  · intro hc
    rcases hx.comp with h1 | ⟨-, -, h1, h2⟩
    · rw [h1] at hc
      obtain ⟨q, b, hq, hz⟩ := ho.zstrm hc
      refine ⟨q, b, hq.mono x, fun i b hi => ?_⟩
      rcases hi.split with hi | ⟨-, -, hi⟩
      · exact hz i b hi
      · exact absurd (hx.zstrm b hi) (ho.comp hc)
    · refine ⟨l.length, true, ⟨x, last_is l x, hx.thread, h1⟩, fun i b hi => ?_⟩
      rcases hi.split with hi | ⟨-, -, hi⟩
      · exact hi.lt
      · exact absurd hi (h2 b)
  · intro hn i b hi
    rcases hi.split with hi | ⟨-, hi, -⟩
    · refine ho.unset ?_ i b hi
      rcases hx.next with h | h
      · rw [← h, hn]
      · exact h
    · rw [hx.thread] at hi; cases hi
  · intro i b hi
    rw [hx.r]
    rcases hi.split with hi | ⟨-, -, hi⟩
    · exact ho.result i b hi
    · exact (hx.result b hi).1
  · intro i b
    constructor
    · intro hi
      rcases hi.split with hi | ⟨-, hi, -⟩
      · exact (ho.own i b).1 hi
      · rw [hx.thread] at hi; cases hi
    · intro hi
      rcases hi.split with hi | ⟨-, -, hi⟩
      · exact (ho.own i b).2 hi
      · exact hx.reads b hi
  · intro hc i hi
    rw [hx.complete] at hc
    exact (ho.ended hc i (notNet hi)).mono x
  · intro v hv hr
    obtain ⟨i, t, b, b', ht, hi, hm, hno⟩ := race_split hr (ho.ok v hv)
    have ht : t = .network := by
      rw [hx.thread] at ht
      cases t
      · exact absurd rfl ht
      · rfl
    subst ht
    apply hno
    cases v with
    | data | comp | done => exact (ho.writer (hx.shared _ _ hm rfl).1 i ⟨_, b, rfl, hi⟩).order hx.thread
    | next => exact absurd hi (ho.own i b).1
    | reading => exact absurd hm (hx.reads _)
    | zstrm => exact absurd hi (ho.unset (hx.zstrm _ hm) i b)
    | result =>
      obtain ⟨d, h1, h2, -⟩ := hi
      exact .join (getElem?_lt h1) (getElem?_snoc h1) (last_is l x) h2 (hx.result _ hm).2
    | complete => exact absurd rfl hv

theorem ordered_network {e : Ev} {l : List Did} {s s' : St Z} {x : Did} (ho : Ordered l s) (h : Step c e s s') (hx : ByNetwork s s' x) : Ordered (l ++ [x]) s' := by
  have notWriter : ∀ {i}, Touches (l ++ [x]) i .writer → Touches l i .writer := fun h => by
    rcases h.split with h | ⟨-, h, -⟩
    · exact h
    · rw [hx.thread] at h; cases h
  have notWriter' : ∀ {i v b}, Access (l ++ [x]) i .writer v b → Access l i .writer v b := fun h => by
    rcases h.split with h | ⟨-, h, -⟩
    · exact h
    · rw [hx.thread] at h; cases h
  have token := ho.inv.token
  have within : ∀ v b, (v, b) ∈ x.acc → v.shared = true → s.r.live = true ∧ s.r.holds s.reading = true := by
    intro v b hm hv
    rcases hx.shared v b hm hv with ⟨n, hr⟩ | ⟨n, out, hr⟩
    · have := ho.inv.reading true (by rw [hr]; rfl)
      rw [hr]
      exact ⟨rfl, this⟩
    · have := ho.inv.reading true (by rw [hr]; rfl)
      rw [hr]
      exact ⟨rfl, this⟩
  refine ⟨inv_step ho.inv h, ?_, ?_, ?_, ?_, ?_, ?_, ?_, ?_, ?_, ?_, ?_⟩
  · intro hc i hi
    rcases hi.split with hi | ⟨rfl, -, v, b, hv, hm⟩
    · rcases hx.canWrite hc with hc | hc
      · exact (ho.free hc i hi).mono x
      · exact known_last hc (hi.order hx.thread)
    · obtain ⟨h1, h2⟩ := within v b hm hv
      rw [hx.same v b hm hv] at hc
      have := token h1
      rw [h2, hc] at this
      simp at this
  · intro hl hc i hi
    exact (ho.full (hx.live hl) (hx.canRead hc) i (notWriter hi)).mono x
  · intro hw i hi
    rw [hx.w] at hw
    rcases hi.split with hi | ⟨rfl, -, v, b, hv, hm⟩
    · exact (ho.writer hw i hi).mono x
    · obtain ⟨h1, h2⟩ := within v b hm hv
      have := token h1
      rw [h2, hw] at this
      simp at this
  · intro hl hr i hi
    have hi := notWriter hi
    rcases hx.holds hl hr with hr | ⟨h1, h2⟩
    · exact (ho.network (hx.live hl) hr i hi).mono x
    · exact known_last hx.thread ((ho.full (hx.live hl) h1 i hi).lock h2)
  · rw [hx.comp, hx.next]
    exact ho.comp
  · rw [hx.comp]
    intro hc
    obtain ⟨q, b, hq, hz⟩ := ho.zstrm hc
    exact ⟨q, b, hq.mono x, fun i b hi => hz i b (notWriter' hi)⟩
  · rw [hx.next]
    intro hn i b hi
    rcases hi.split with hi | ⟨-, -, hi⟩
    · exact ho.unset hn i b hi
    · exact ho.comp (hx.zstrm b hi) hn
  · intro i b hi
    exact absurd (ho.result i b (notWriter' hi)) hx.moves
  · intro i b
    refine ⟨fun hi => ?_, fun hi => (ho.own i b).2 (notWriter' hi)⟩
    rcases hi.split with hi | ⟨-, -, hi⟩
    · exact (ho.own i b).1 hi
    · exact hx.next' b hi
  · intro hc i hi
    rcases hx.complete hc with hc | ⟨hc, hr⟩
    · exact absurd (ho.inv.complete.mp hc) hx.moves
    · rcases hi.split with hi | ⟨rfl, -, v, b, hv, hm⟩
      · exact known_last hc (hi.order hx.thread)
      · have := (within v b hm hv).1
        rw [hr] at this
        cases this
  · intro v hv hr
    obtain ⟨i, t, b, b', ht, hi, hm, hno⟩ := race_split hr (ho.ok v hv)
    have ht : t = .writer := by
      rw [hx.thread] at ht
      cases t
      · rfl
      · exact absurd rfl ht
    subst ht
    apply hno
    cases v with
    | data | comp | done =>
      obtain ⟨h1, h2⟩ := within _ _ hm rfl
      exact (ho.network h1 h2 i ⟨_, b, rfl, hi⟩).order hx.thread
    | next => exact absurd hm (hx.next' _)
    | reading => exact absurd hi (ho.own i b).2
    | zstrm =>
      obtain ⟨q, b2, hq, hz⟩ := ho.zstrm (hx.zstrm _ hm)
      obtain ⟨n, hr⟩ := hx.zcomp _ hm
      have hh : s.r.live = true ∧ s.r.holds s.reading = true := by
        have := ho.inv.reading true (by rw [hr]; rfl)
        rw [hr]
        exact ⟨rfl, this⟩
      have h3 := (ho.network hh.1 hh.2 q ⟨.comp, b2, rfl, hq⟩).order hx.thread
      have h4 := hz i b hi
      obtain ⟨d, h5, h6, -⟩ := hi
      obtain ⟨d', h7, h8, -⟩ := hq
      exact .trans (.order h4 (getElem?_snoc h5) (getElem?_snoc h7) (h6.trans h8.symm)) h3
    | result =>
      have h1 := ho.result i b hi
      exact absurd h1 hx.moves
    | complete => exact absurd rfl hv

theorem ordered_run {l : List Did} {s : St Z} (h : Run c l s) : Ordered l s := by
  induction h with
  | start z => exact ordered_start z
  | step _ h ih =>
    rcases step_kind ih.inv h with hx | hx
    · exact ordered_writer ih h hx
    · exact ordered_network ih h hx

theorem run_exec {l : List Did} {s : St Z} (h : Run c l s) : ∃ t, Exec c t s := by
  induction h with
  | start z => exact ⟨_, .start z⟩
  | step _ h ih =>
    obtain ⟨t, ht⟩ := ih
    exact ⟨_, .step ht h⟩

theorem exec_run {t : List Ev} {s : St Z} (h : Exec c t s) : ∃ l, Run c l s := by
  induction h with
  | start z => exact ⟨_, .start z⟩
  | step _ h ih =>
    obtain ⟨l, hl⟩ := ih
    exact ⟨_, .step hl h⟩

theorem before_unseen {l : List Did} (hs : ∀ d ∈ l, d.sees = false) {i j : Nat} (h : Before true l i j) : Before false l i j := by
  induction h with
  | order h1 h2 h3 h4 => exact .order h1 h2 h3 h4
  | lock h1 h2 h3 h4 h5 => exact .lock h1 h2 h3 h4 h5
  | join h1 h2 h3 h4 h5 => exact .join h1 h2 h3 h4 h5
  | seen _ _ _ h3 _ h5 =>
    rw [hs _ (List.mem_of_getElem? h3)] at h5
    cases h5
  | trans _ _ h1 h2 => exact .trans h1 h2

/-- Nothing of the network thread's leads anywhere when it neither sets a mutex free nor is joined. -/
theorem before_stays {l : List Did} (h1 : ∀ d ∈ l, d.thread = .network → d.releases = none) (h2 : ∀ d ∈ l, d.joins = false) {i j : Nat} (h : Before false l i j) :
    (∀ d, l[i]? = some d → d.thread = .network) → ∀ d, l[j]? = some d → d.thread = .network := by
  induction h with
  | order _ ha hb he =>
    intro hi d hd
    rw [hb] at hd
    cases hd
    rw [← he]
    exact hi _ ha
  | lock _ ha hb hr _ =>
    intro hi
    rw [h1 _ (List.mem_of_getElem? ha) (hi _ ha)] at hr
    cases hr
  | join _ _ hb _ hj =>
    rw [h2 _ (List.mem_of_getElem? hb)] at hj
    cases hj
  | seen h => cases h
  | trans _ _ h1 h2 => exact fun hi => h2 (h1 hi)

/-! ## Theorems -/

/-- **C103, if `_complete` were atomic.** In no execution, with any blocks written, any compression, any sizes of buffers and any end of the transfer, is there a data race. -/
theorem C103_atomic {l : List Did} {s : St Z} (h : Run c l s) {v : Var} (hv : v ≠ .complete) : ¬ Race true l v := (ordered_run h).ok v hv

/-- **C103.** As the code is, there is no data race but on `_complete` as long as the writer does not learn of the end of the network thread by `_complete`. Missing: the executions in
which it does, and `_complete` itself (`C103_false`). -/
theorem C103_unseen_partial {l : List Did} {s : St Z} (h : Run c l s) (hs : ∀ d ∈ l, d.sees = false) {v : Var} (hv : v ≠ .complete) : ¬ Race false l v := by
  rintro ⟨i, j, t, t', b, b', h1, h2, h3, h4, h5, h6⟩
  exact C103_atomic h hv ⟨i, j, t, t', b, b', h1, h2, h3, h4, h5, fun hb => h6 (before_unseen hs hb)⟩

/-- The executions with what they do are the executions. -/
theorem C103_runs {s : St Z} : (∃ l, Run c l s) ↔ ∃ t, Exec c t s := ⟨fun ⟨_, h⟩ => run_exec h, fun ⟨_, h⟩ => exec_run h⟩

/-- A compressor that does nothing; it is not used. -/
def idleCodec : Codec Unit := { init := fun _ => (), deflate := fun _ _ _ _ => ((), 0, []) }

/-- The transfer breaks off after the first byte of a block of two, and the writer calls `await`. -/
theorem brokenOff : ∃ l s, Run idleCodec l s ∧ (∀ d ∈ l, d.thread = .network → d.releases = none) ∧ (∀ d ∈ l, d.joins = false) ∧
    Access l 8 .network .data true ∧ Access l 13 .network .complete true ∧ Access l 15 .writer .complete false ∧ Access l 17 .writer .data true ∧
    ∀ d, (l[8]? = some d ∨ l[13]? = some d → d.thread = .network) ∧ (l[15]? = some d ∨ l[17]? = some d → d.thread = .writer) := by
  have h := Run.start (c := idleCodec) ()
  have h := h.step (.callWrite _ [1, 2] rfl)
  have h := h.step (.lockOk _ [1, 2] rfl rfl)
  have h := h.step (.setData _ [1, 2] rfl)
  have h := h.step (.setComp _ [1, 2] rfl)
  have h := h.step (.post _ [1, 2] rfl)
  have h := h.step (.request _ 1 rfl (by decide))
  have h := h.step (.lockRead _ 1 rfl rfl rfl)
  have h := h.step (.mark _ 1 rfl)
  have h := h.step (.produce _ 1 rfl)
  have h := h.step (.checkMore _ 1 [1] rfl rfl (by decide))
  have h := h.step (.enough _ 1 [1] rfl (by decide))
  have h := h.step (.ret _ [1] rfl)
  have h := h.step (.exit _ rfl)
  have h := h.step (.complete _ rfl)
  have h := h.step (.callAwait _ rfl)
  have h := h.step (.runDead _ rfl rfl)
  have h := h.step (.aDone _ rfl)
  have h := h.step (.aData _ rfl)
  refine ⟨_, _, h, by decide, by decide, ⟨_, rfl, rfl, by decide⟩, ⟨_, rfl, rfl, by decide⟩, ⟨_, rfl, rfl, by decide⟩, ⟨_, rfl, rfl, by decide⟩, fun d => ⟨?_, ?_⟩⟩
  · rintro (h | h) <;> cases h <;> rfl
  · rintro (h | h) <;> cases h <;> rfl

/-- **C103 is false of the code.** When a transfer breaks off, the network thread's setting of `_complete` and the writer's reading of it race, and so do the network thread's last use of
`_data` and the writer's clearing of it. -/
theorem C103_false : ∃ l s, Run idleCodec l s ∧ Race false l .complete ∧ Race false l .data := by
  obtain ⟨l, s, h, h1, h2, a1, a2, a3, a4, ht⟩ := brokenOff
  refine ⟨l, s, h, ⟨13, 15, .network, .writer, _, _, by decide, nofun, a2, a3, .inl rfl, fun hb => ?_⟩, ⟨8, 17, .network, .writer, _, _, by decide, nofun, a1, a4, .inl rfl, fun hb => ?_⟩⟩
  · obtain ⟨d, hd, hw, -⟩ := a3
    have := before_stays h1 h2 hb (fun d hd => (ht d).1 (.inr hd)) d hd
    rw [hw] at this
    cases this
  · obtain ⟨d, hd, hw, -⟩ := a4
    have := before_stays h1 h2 hb (fun d hd => (ht d).1 (.inl hd)) d hd
    rw [hw] at this
    cases this

/-- The hypothesis of `C103_unseen_partial` in an execution in which both threads use `_data`: a block is written, read, and the end is signalled. -/
example : ∃ l s, Run idleCodec l s ∧ (∀ d ∈ l, d.sees = false) ∧ (∃ i, Access l i .network .data true) ∧ (∃ i, Access l i .writer .done true) := by
  have h := Run.start (c := idleCodec) ()
  have h := h.step (.callWrite _ [1, 2] rfl)
  have h := h.step (.lockOk _ [1, 2] rfl rfl)
  have h := h.step (.setData _ [1, 2] rfl)
  have h := h.step (.setComp _ [1, 2] rfl)
  have h := h.step (.post _ [1, 2] rfl)
  have h := h.step (.request _ 5 rfl (by decide))
  have h := h.step (.lockRead _ 5 rfl rfl rfl)
  have h := h.step (.mark _ 5 rfl)
  have h := h.step (.produce _ 5 rfl)
  have h := h.step (.checkEnd _ 5 [1, 2] rfl rfl rfl)
  have h := h.step (.unlock _ 5 [1, 2] rfl)
  have h := h.step (.callAwait _ rfl)
  have h := h.step (.runAlive _ rfl rfl)
  have h := h.step (.tryOk _ rfl rfl)
  have h := h.step (.aDone _ rfl)
  exact ⟨_, _, h, by decide, ⟨8, _, rfl, rfl, by decide⟩, ⟨14, _, rfl, rfl, by decide⟩⟩

end Verif.Transport
