import Verif.Transport.Compress

/-! # The streaming upload: no deadlock and no endless waiting -/

namespace Verif.Transport

open Spec

variable {Z : Type} {c : Codec Z}

namespace Spec

/-- What is asked of the compressor: it uses no more input than there is; when it has input and room it uses some input or puts out something;
and its output is bounded: there is a bound on what a state can put out without more input, and every byte of input raises it by at most `k`. -/
structure Sound (c : Codec Z) : Prop where
  used_le : ∀ z d n f, (c.deflate z d n f).2.1 ≤ d.length
  advances : ∀ z d n, 0 < n → d ≠ [] → (c.deflate z d n false).2.1 ≠ 0 ∨ (c.deflate z d n false).2.2 ≠ []
  bounded : ∃ (bound : Z → Nat) (k : Nat), ∀ z d n f,
    bound (c.deflate z d n f).1 + (c.deflate z d n f).2.2.length ≤ bound z + k * (c.deflate z d n f).2.1

/-- The code that uses the transport calls a function of it. -/
def Call : Ev → Prop
  | .callWrite _ | .setComp _ | .callAwait => True
  | _ => False

/-- The writer finds that the network thread is running and goes on to try again, with `_canWrite` not free. -/
def Retry (s s' : St Z) : Prop := s.canWrite = false ∧ s'.canWrite = false ∧
  ((∃ d, s.w = .chk d ∧ s'.w = .tryW d) ∨ (s.w = .aChk ∧ s'.w = .aTry))

/-- A step by which the threads get on by themselves: not a new call by the user of the transport, not a vain retry, and curl does not ask for more
after it was told that there is no more. -/
def Work (c : Codec Z) (p p' : List Ev × St Z) : Prop :=
  ∃ e, Step c e p.2 p'.2 ∧ p'.1 = p.1 ++ [e] ∧ ¬ Call e ∧ ¬ Retry p.2 p'.2 ∧ (∀ n, e = .request n → ¬ Ended p.1)

/-- The same without help from failures: curl does not return before it was told that there is no more data. -/
def Progress (c : Codec Z) (p p' : List Ev × St Z) : Prop :=
  Work c p p' ∧ (p'.1 = p.1 ++ [.exit] → Ended p.1)

end Spec

/-! ## Progress -/

/-- **C39.** No deadlock: whenever the writer is in a call of `write` or `await`, one of the threads can do a step of work (without help from a failing
connection). -/
theorem C39_no_deadlock {t : List Ev} {s : St Z} (h : Exec c t s) (hw : s.w ≠ .idle) : ∃ p', Progress c (t, s) p' := by
  have hi := inv_exec h
  -- a step of the writer that is neither a call nor a retry
  have wr : ∀ {e s'}, Step c e s s' → ¬ Call e → ¬ Retry s s' → (∀ n, e ≠ .request n) → e ≠ .exit → ∃ p', Progress c (t, s) p' := by
    intro e s' hs h1 h2 h3 h4
    refine ⟨(t ++ [e], s'), ⟨e, hs, rfl, h1, h2, fun n hn => absurd hn (h3 n)⟩, fun he => absurd ?_ h4⟩
    simpa using he
  -- the network thread has a step unless it waits for `_canRead` or has ended
  have rd : (∀ n, s.r = .enter n → s.reading = true ∨ s.canRead = true) → s.r ≠ .ended → ∃ p', Progress c (t, s) p' := by
    intro he hne
    by_cases ho : s.r = .outside
    · by_cases hend : Ended t
      · refine ⟨(t ++ [.exit], _), ⟨.exit, .exit s ho, rfl, nofun, ?_, nofun⟩, fun _ => hend⟩
        rintro ⟨-, -, ⟨d, h1, h2⟩ | ⟨h1, h2⟩⟩ <;> simp only at h1 h2 <;> simp [h1] at h2
      · refine ⟨(t ++ [.request 1], _), ⟨.request 1, .request s 1 ho Nat.one_pos, rfl, nofun, ?_, fun _ _ => hend⟩, fun he => ?_⟩
        · rintro ⟨-, -, ⟨d, h1, h2⟩ | ⟨h1, h2⟩⟩ <;> simp only at h1 h2 <;> simp [h1] at h2
        · simp at he
    · suffices H : ∃ e s', Step c e s s' ∧ ¬ Call e ∧ s'.w = s.w ∧ (∀ n, e ≠ .request n) ∧ e ≠ .exit by
        obtain ⟨e, s', hs, h1, h2, h3, h4⟩ := H
        refine wr hs h1 ?_ h3 h4
        rintro ⟨-, -, ⟨d, g1, g2⟩ | ⟨g1, g2⟩⟩ <;> simp [h2, g1] at g2
      cases hr : s.r with
      | outside => exact absurd hr ho
      | ended => exact absurd hr hne
      | enter n =>
        cases hrd : s.reading with
        | true => exact ⟨_, _, .noLock s n hr hrd, nofun, rfl, nofun, nofun⟩
        | false =>
          have := (he n hr).resolve_left (by simp [hrd])
          exact ⟨_, _, .lockRead s n hr hrd this, nofun, rfl, nofun, nofun⟩
      | mark n => exact ⟨_, _, .mark s n hr, nofun, rfl, nofun, nofun⟩
      | produce n => exact ⟨_, _, .produce s n hr, nofun, rfl, nofun, nofun⟩
      | check n out =>
        cases hd : s.done with
        | true => exact ⟨_, _, .checkDone s n out hr hd, nofun, rfl, nofun, nofun⟩
        | false =>
          by_cases hdt : s.data = []
          · exact ⟨_, _, .checkEnd s n out hr hd hdt, nofun, rfl, nofun, nofun⟩
          · exact ⟨_, _, .checkMore s n out hr hd hdt, nofun, rfl, nofun, nofun⟩
      | unlock n out => exact ⟨_, _, .unlock s n out hr, nofun, rfl, nofun, nofun⟩
      | again n out =>
        by_cases hout : out = []
        · subst hout; exact ⟨_, _, .again s n hr, nofun, rfl, nofun, nofun⟩
        · exact ⟨_, _, .enough s n out hr hout, nofun, rfl, nofun, nofun⟩
      | ret out => exact ⟨_, _, .ret s out hr, nofun, rfl, nofun, nofun⟩
      | exiting => exact ⟨_, _, .complete s hr, nofun, rfl, nofun, nofun⟩
  -- it can only wait if the writer has the token or `_canWrite` is free
  have wait : s.w.holds = false → s.canWrite = false → ∀ n, s.r = .enter n → s.reading = true ∨ s.canRead = true := by
    intro h1 h2 n hr
    have := hi.token (by rw [hr]; rfl)
    rw [h1, h2, hr] at this
    cases hrd : s.reading <;> cases hcr : s.canRead <;> simp_all [RPos.holds]
  -- a retry
  have retry : s.w.holds = false → s.complete = false → s.canWrite = false → ∃ p', Progress c (t, s) p' := by
    intro h1 h2 h3
    refine rd (wait h1 h3) fun hr => ?_
    rw [hi.complete.2 hr] at h2; cases h2
  cases hws : s.w with
  | idle => exact absurd hws hw
  | tryW d =>
    cases hc : s.canWrite with
    | true => exact wr (.lockOk s d hws hc) nofun (by rintro ⟨h, -⟩; simp [hc] at h) nofun nofun
    | false => exact wr (.lockFail s d hws hc) nofun (by rintro ⟨-, -, ⟨d, h, -⟩ | ⟨h, -⟩⟩ <;> simp [hws] at h) nofun nofun
  | chk d =>
    cases hc : s.complete with
    | true => exact wr (.chkDead s d hws hc) nofun (by rintro ⟨-, -, ⟨d, -, h⟩ | ⟨-, h⟩⟩ <;> simp at h) nofun nofun
    | false =>
      cases hcw : s.canWrite with
      | true => exact wr (.chkAlive s d hws hc) nofun (by rintro ⟨h, -⟩; simp [hcw] at h) nofun nofun
      | false => exact retry (by rw [hws]; rfl) hc hcw
  | setData d => exact wr (.setData s d hws) nofun (by rintro ⟨-, -, ⟨d, h, -⟩ | ⟨h, -⟩⟩ <;> simp [hws] at h) nofun nofun
  | setComp d => exact wr (.setComp s d hws) nofun (by rintro ⟨-, -, ⟨d, h, -⟩ | ⟨h, -⟩⟩ <;> simp [hws] at h) nofun nofun
  | post d => exact wr (.post s d hws) nofun (by rintro ⟨-, -, ⟨d, h, -⟩ | ⟨h, -⟩⟩ <;> simp [hws] at h) nofun nofun
  | aRun =>
    cases hc : s.complete with
    | true => exact wr (.runDead s hws hc) nofun (by rintro ⟨-, -, ⟨d, h, -⟩ | ⟨h, -⟩⟩ <;> simp [hws] at h) nofun nofun
    | false => exact wr (.runAlive s hws hc) nofun (by rintro ⟨-, -, ⟨d, h, -⟩ | ⟨h, -⟩⟩ <;> simp [hws] at h) nofun nofun
  | aTry =>
    cases hc : s.canWrite with
    | true => exact wr (.tryOk s hws hc) nofun (by rintro ⟨h, -⟩; simp [hc] at h) nofun nofun
    | false => exact wr (.tryFail s hws hc) nofun (by rintro ⟨-, -, ⟨d, h, -⟩ | ⟨h, -⟩⟩ <;> simp [hws] at h) nofun nofun
  | aChk =>
    cases hc : s.complete with
    | true => exact wr (.againDead s hws hc) nofun (by rintro ⟨-, -, ⟨d, -, h⟩ | ⟨-, h⟩⟩ <;> simp at h) nofun nofun
    | false =>
      cases hcw : s.canWrite with
      | true => exact wr (.againAlive s hws hc) nofun (by rintro ⟨h, -⟩; simp [hcw] at h) nofun nofun
      | false => exact retry (by rw [hws]; rfl) hc hcw
  | aDone => exact wr (.aDone s hws) nofun (by rintro ⟨-, -, ⟨d, h, -⟩ | ⟨h, -⟩⟩ <;> simp [hws] at h) nofun nofun
  | aData => exact wr (.aData s hws) nofun (by rintro ⟨-, -, ⟨d, h, -⟩ | ⟨h, -⟩⟩ <;> simp [hws] at h) nofun nofun
  | aPost => exact wr (.aPost s hws) nofun (by rintro ⟨-, -, ⟨d, h, -⟩ | ⟨h, -⟩⟩ <;> simp [hws] at h) nofun nofun
  | aJoin =>
    by_cases hr : s.r = .ended
    · exact wr (.aJoin s hws hr) nofun (by rintro ⟨-, -, ⟨d, h, -⟩ | ⟨h, -⟩⟩ <;> simp [hws] at h) nofun nofun
    · refine rd (fun n hn => ?_) hr
      have hl : s.r.live = true := by rw [hn]; rfl
      exact wait (by rw [hws]; rfl) (hi.closed hl (by rw [hws]; rfl)).1 n hn

/-! ## Termination -/

/-- How far the writer is from the end of its call. -/
def WPos.rank : WPos → Nat
  | .idle => 0
  | .post _ => 1 | .setComp _ => 2 | .setData _ => 3 | .tryW _ | .chk _ => 4
  | .aJoin => 5 | .aPost => 6 | .aData => 7 | .aDone => 8 | .aTry | .aChk => 9 | .aRun => 10

/-- The block that the writer has not yet put into `_data`. -/
def WPos.coming : WPos → Bytes
  | .tryW d | .chk d | .setData d => d
  | _ => []

/-- Bound on the output still to come, and the input still to be used. -/
def left (bound : Z → Nat) (k : Nat) (s : St Z) : Nat := bound s.z + (k + 1) * (s.data.length + s.w.coming.length)

/-- How far the network thread is from waiting or from having used something; `e`: the end of the data has been signalled. -/
def RPos.rank (e done token empty : Bool) : RPos → Nat
  | .ended => 0
  | .exiting => 1
  | .outside => if e then 2 else 20
  | .ret out => if out = [] then 3 else 21
  | .enter _ => if token then 19 else 4
  | .mark _ => 18
  | .produce _ => 17
  | .check _ out => if out = [] then (if empty || done then 8 else 25) else 26
  | .unlock _ out => if out = [] then 7 else 24
  | .again _ out => if out = [] then (if token then 20 else 5) else 22

/-- Whether the next step of the writer's trying is due. -/
def WPos.minor (canWrite : Bool) : WPos → Nat
  | .tryW _ | .aTry => if canWrite then 0 else 1
  | .chk _ | .aChk => if canWrite then 1 else 0
  | _ => 0

instance (t : List Ev) : Decidable (Ended t) := inferInstanceAs (Decidable (Ev.gave [] ∈ t))

/-- The measure. -/
def measure (bound : Z → Nat) (k : Nat) (p : List Ev × St Z) : Nat × Nat × Nat × Nat :=
  (p.2.w.rank, left bound k p.2,
    p.2.r.rank (decide (Ended p.1)) p.2.done (p.2.reading || p.2.canRead) p.2.data.isEmpty, p.2.w.minor p.2.canWrite)

/-- The lexicographic order. -/
abbrev lex4 : Nat × Nat × Nat × Nat → Nat × Nat × Nat × Nat → Prop :=
  Prod.Lex (· < ·) (Prod.Lex (· < ·) (Prod.Lex (· < ·) (· < ·)))

theorem lex4_wf : WellFounded lex4 :=
  (Prod.lex ⟨_, Nat.lt_wfRel.wf⟩ (Prod.lex ⟨_, Nat.lt_wfRel.wf⟩ (Prod.lex ⟨_, Nat.lt_wfRel.wf⟩ ⟨_, Nat.lt_wfRel.wf⟩))).wf

theorem lex4_1 {a b : Nat} {x y : Nat × Nat × Nat} (h : a < b) : lex4 (a, x) (b, y) := .left _ _ h
theorem lex4_2 {a b b' : Nat} {x y : Nat × Nat} (h : b < b') : lex4 (a, b, x) (a, b', y) := .right _ (.left _ _ h)
theorem lex4_3 {a b b' d d' x y : Nat} (hb : b ≤ b') (h : d < d') : lex4 (a, b, d, x) (a, b', d', y) := by
  rcases Nat.lt_or_eq_of_le hb with hb | rfl
  · exact lex4_2 hb
  · exact .right _ (.right _ (.left _ _ h))
theorem lex4_4 {a b b' d x y : Nat} (hb : b ≤ b') (h : x < y) : lex4 (a, b, d, x) (a, b', d, y) := by
  rcases Nat.lt_or_eq_of_le hb with hb | rfl
  · exact lex4_2 hb
  · exact .right _ (.right _ (.right _ h))

/-- What lines 94-115 of curlrequester.cpp do to the measure. -/
theorem left_produce {bound : Z → Nat} {k : Nat} (hc : Sound c)
    (hb : ∀ z d n f, bound (c.deflate z d n f).1 + (c.deflate z d n f).2.2.length ≤ bound z + k * (c.deflate z d n f).2.1)
    (s : St Z) (n : Nat) (hn : 0 < n) :
    let s' := { s with z := produceZ c s n, data := produceData c s n, r := RPos.check n (produceOut c s n) }
    left bound k s' < left bound k s ∨
    (left bound k s' = left bound k s ∧ produceOut c s n = [] ∧ produceData c s n = s.data ∧ (s.data = [] ∨ s.done = true)) := by
  intro s'
  by_cases hcomp : s.comp = .none
  · have h1 : produceZ c s n = s.z := by simp [produceZ, hcomp]
    have h2 : produceData c s n = s.data.drop n := by simp [produceData, hcomp]
    have h3 : produceOut c s n = s.data.take n := by simp [produceOut, hcomp]
    by_cases hd : s.data = []
    · right; simp [s', left, h1, h2, h3, hd]
    · left
      simp only [s', left, h1, h2]
      have : (s.data.drop n).length < s.data.length := by
        rw [List.length_drop]; have := List.length_pos_iff.2 hd; omega
      have := Nat.mul_lt_mul_of_pos_left (Nat.add_lt_add_right this s.w.coming.length) (Nat.succ_pos k)
      exact Nat.add_lt_add_left this _
  · have h1 : produceZ c s n = (c.deflate s.z s.data n s.done).1 := by simp [produceZ, hcomp]
    have h2 : produceData c s n = s.data.drop (c.deflate s.z s.data n s.done).2.1 := by simp [produceData, hcomp]
    have h3 : produceOut c s n = (c.deflate s.z s.data n s.done).2.2 := by simp [produceOut, hcomp]
    have hle := hc.used_le s.z s.data n s.done
    have hbd := hb s.z s.data n s.done
    have hadv : s.done = false → s.data ≠ [] →
        (c.deflate s.z s.data n s.done).2.1 ≠ 0 ∨ (c.deflate s.z s.data n s.done).2.2 ≠ [] := by
      intro h h'; rw [h]; exact hc.advances s.z s.data n hn h'
    simp only [s', left, h1, h2, h3]
    generalize c.deflate s.z s.data n s.done = p at *
    obtain ⟨z', u, out⟩ := p
    simp only at *
    rw [List.length_drop]
    have e : (k + 1) * (s.data.length + s.w.coming.length) = (k + 1) * (s.data.length - u + s.w.coming.length) + (k * u + u) := by
      rw [← Nat.succ_mul, ← Nat.mul_add]; congr 1; omega
    by_cases hz : u = 0 ∧ out = []
    · obtain ⟨rfl, rfl⟩ := hz
      have hdd : s.data = [] ∨ s.done = true := by
        by_cases h : s.data = []
        · exact .inl h
        · cases hdn : s.done with
          | true => exact .inr rfl
          | false => simpa using hadv hdn h
      simp only [List.drop_zero, hdd, and_true, Nat.sub_zero, List.length_nil] at *
      omega
    · left
      have : 0 < u ∨ 0 < out.length := by
        by_cases hu : u = 0
        · right; exact List.length_pos_iff.2 fun h => hz ⟨hu, h⟩
        · left; omega
      omega

theorem ended_snoc (t : List Ev) (e : Ev) : Ended (t ++ [e]) ↔ Ended t ∨ e = .gave [] := by
  simp [Ended, eq_comm]

theorem work_decreases (hc : Sound c) {bound : Z → Nat} {k : Nat}
    (hb : ∀ z d n f, bound (c.deflate z d n f).1 + (c.deflate z d n f).2.2.length ≤ bound z + k * (c.deflate z d n f).2.1)
    {t : List Ev} {s : St Z} (h : Exec c t s) {p' : List Ev × St Z} (hw : Work c (t, s) p') :
    lex4 (measure bound k p') (measure bound k (t, s)) := by
  obtain ⟨t', s'⟩ := p'
  obtain ⟨e, hs, ht, hcall, hretry, hreq⟩ := hw
  simp only at hs ht; subst ht
  have hi := inv_exec h
  have hsz := (sinv_exec h).size
  have hq : ∀ {e}, e ≠ .gave [] → decide (Ended (t ++ [e])) = decide (Ended t) := by
    intro e he
    refine decide_eq_decide.2 ?_
    rw [ended_snoc]; simp [he]
  cases hs
  case callWrite | setCompression | callAwait => exact absurd trivial hcall
  case lockOk d h1 h2 | setData d h1 | setComp d h1 | post d h1 | chkDead d h1 h2 | runDead h1 h2 | runAlive h1 h2 | tryOk h1 h2 | aDone h1 |
      aData h1 | aPost h1 | againDead h1 h2 | aJoin h1 h2 =>
    refine lex4_1 ?_
    simp [WPos.rank, *]
  case lockFail | tryFail =>
    rename_i h1 h2
    simp only [measure, hq (e := .tau) nofun]
    simp only [h1, h2, WPos.rank, WPos.minor, left, WPos.coming]
    refine lex4_4 (Nat.le_refl _) ?_; simp
  case chkAlive | againAlive =>
    rename_i h1 h2
    simp only [measure, hq (e := .tau) nofun]
    cases hcw : s.canWrite with
    | false => exact absurd ⟨hcw, hcw, by simp [h1]⟩ hretry
    | true =>
      simp only [h1, WPos.rank, WPos.minor, left, WPos.coming]
      refine lex4_4 (Nat.le_refl _) ?_; simp
  case produce n h1 =>
    have hn := hsz n (by rw [h1]; rfl)
    simp only [measure, hq (e := .tau) nofun]
    rcases left_produce hc hb s n hn with h | ⟨h, ho, hd, hdd⟩
    · exact lex4_2 h
    · refine lex4_3 (Nat.le_of_eq h) ?_
      rw [h1, ho, hd]
      simp only [RPos.rank]
      rcases hdd with h | h <;> simp [h]
  case ret out h1 =>
    refine lex4_3 (Nat.le_refl _) ?_
    simp only [h1, RPos.rank]
    by_cases ho : out = []
    · have := (ended_snoc t (.gave out)).2 (.inr (by rw [ho]))
      rw [if_pos (decide_eq_true this), if_pos ho]; decide
    · simp only [ho, if_false]; split <;> omega
  case unlock n out h1 =>
    have ht := hi.token (by rw [h1]; rfl)
    have hrd : s.reading = false := hi.reading false (by rw [h1]; rfl)
    have hcr : s.canRead = false := by
      rw [h1] at ht; cases hx : s.canRead <;> simp_all [RPos.holds]
    refine lex4_3 (Nat.le_refl _) ?_
    simp only [h1, hrd, hcr, RPos.rank]
    split <;> simp
  case request n h2 h1 =>
    refine lex4_3 (Nat.le_refl _) ?_
    have := hreq n rfl
    simp only at this
    simp only [h1, RPos.rank, this, decide_false]
    split <;> simp
  case checkMore n out h1 h2 h3 =>
    have hrd : s.reading = true := hi.reading true (by rw [h1]; rfl)
    refine lex4_3 (Nat.le_refl _) ?_
    simp only [h1, h2, RPos.rank]
    simp [h3, hrd]
    split <;> simp
  all_goals
    refine lex4_3 (Nat.le_refl _) ?_
    simp only [RPos.rank]
    simp [*]
    try (repeat' split) <;> simp_all

/-- **C39.** No endless waiting: the threads cannot go on for ever by themselves. In every endless execution there are endlessly many new calls by the
user of the transport, or endlessly many vain retries (each after a pause of 10 ms), or curl asks for more after it was told that there is no more. -/
theorem C39_terminates (hc : Sound c) (f : Nat → List Ev × St Z) (h0 : Exec c (f 0).1 (f 0).2) : ¬ ∀ i, Work c (f i) (f (i + 1)) := by
  intro hw
  obtain ⟨bound, k, hb⟩ := hc.bounded
  have hx : ∀ i, Exec c (f i).1 (f i).2 := by
    intro i
    induction i with
    | zero => exact h0
    | succ i ih =>
      obtain ⟨e, hs, ht, -⟩ := hw i
      rw [ht]; exact .step ih hs
  have key : ∀ x, ∀ i, measure bound k (f i) = x → False := by
    intro x
    induction x using lex4_wf.induction with
    | _ x ih =>
      intro i hi
      refine ih _ ?_ (i + 1) rfl
      rw [← hi]
      exact work_decreases hc hb (hx i) (hw i)
  exact key _ 0 rfl

namespace Spec

/-- Steps of work, one after the other. -/
inductive Works (c : Codec Z) (p : List Ev × St Z) : List Ev × St Z → Prop
  | refl : Works c p p
  | step {q r : List Ev × St Z} : Works c p q → Progress c q r → Works c p r

end Spec

theorem works_trans {p q r : List Ev × St Z} (h : Works c p q) (h' : Works c q r) : Works c p r := by
  induction h' with
  | refl => exact h
  | step _ hs ih => exact ih.step hs

/-- **C39.** From every state that can be reached, steps of work lead to the return of the writer's call. By `C39_terminates` and `C39_no_deadlock` they
do so in whatever order the threads take them. -/
theorem C39_call_returns (hc : Sound c) {t : List Ev} {s : St Z} (h : Exec c t s) :
    ∃ p', Works c (t, s) p' ∧ p'.2.w = .idle := by
  obtain ⟨bound, k, hb⟩ := hc.bounded
  have key : ∀ x, ∀ t s, Exec c t s → measure bound k (t, s) = x → ∃ p', Works c (t, s) p' ∧ p'.2.w = .idle := by
    intro x
    induction x using lex4_wf.induction with
    | _ x ih =>
      intro t s h hi
      by_cases hw : s.w = .idle
      · exact ⟨_, .refl, hw⟩
      · obtain ⟨p', hp⟩ := C39_no_deadlock h hw
        obtain ⟨e, hs, ht, -⟩ := hp.1
        obtain ⟨q, hq, hidle⟩ := ih _ (by rw [← hi]; exact work_decreases hc hb h hp.1) p'.1 p'.2 (by rw [ht]; exact .step h hs) rfl
        exact ⟨q, works_trans (.step .refl hp) hq, hidle⟩
  exact key _ t s h rfl

/-- The assumption about the compressor is met by one that copies its input and ends its output with a byte. -/
theorem marker_sound : Sound marker where
  used_le z d n f := by simp only [marker]; split <;> simp <;> omega
  advances z d n hn hd := by
    have := List.length_pos_iff.2 hd
    simp only [marker]
    simp [hd]
    omega
  bounded := by
    refine ⟨fun z => if z then 0 else 1, 1, fun z d n f => ?_⟩
    simp only [marker]; split <;> simp_all <;> omega

/-- A state in which the writer waits in `write` for a network thread that has not yet asked for anything. -/
example : ∃ t s, Exec marker t s ∧ s.w = .chk [2] ∧ s.complete = false ∧ s.canWrite = false :=
  ⟨_, _, ((((((Exec.start (c := marker) false).step (.callWrite _ [1] rfl)).step (.lockOk _ _ rfl rfl)).step (.setData _ _ rfl)).step
    (.setComp _ _ rfl)).step (.post _ _ rfl)).step (.callWrite _ [2] rfl) |>.step (.lockFail _ _ rfl rfl), rfl, rfl, rfl⟩

end Verif.Transport
