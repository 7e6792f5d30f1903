import Verif.Transport.Stream

/-! # The streaming upload: what is sent, and when the end of the data is signalled -/

namespace Verif.Transport

open Spec

variable {Z : Type} {c : Codec Z}

/-- An execution in which an event is seen has a step that makes that event. -/
theorem exec_split {t : List Ev} {s : St Z} (h : Exec c t s) : ∀ {t1 t2 : List Ev} {e : Ev}, t = t1 ++ e :: t2 →
    ∃ s1 s2, Exec c t1 s1 ∧ Step c e s1 s2 := by
  induction h with
  | start z => intro t1 t2 e he; simp at he
  | @step t s s' e' hx hs ih =>
    intro t1 t2 e he
    rcases List.eq_nil_or_concat t2 with h | ⟨t3, x, h⟩
    · subst h
      have := List.append_inj' he rfl
      obtain ⟨rfl, h2⟩ := this
      simp only [List.cons.injEq, and_true] at h2; subst h2
      exact ⟨_, _, hx, hs⟩
    · rw [List.concat_eq_append] at h; subst h
      rw [show t1 ++ e :: (t3 ++ [x]) = (t1 ++ e :: t3) ++ [x] by simp] at he
      exact ih (List.append_inj' he rfl).1

/-- Without compression everything written counts as written before it. -/
theorem header_eq_written {t : List Ev} {s : St Z} (h : Exec c t s) :
    written t = header t ++ document t ∧ (compression t = .none → document t = []) := by
  induction h with
  | start z => exact ⟨rfl, fun _ => rfl⟩
  | @step t s s' e hx hs ih =>
    rw [written_snoc, header_snoc, document_snoc, compression_snoc]
    cases e <;> simp_all
    case wrote d => split <;> simp_all
    case setComp k =>
      intro hk
      cases hs with
      | setCompression _ _ hn =>
        have := (sinv_exec hx).next
        exact ih.2 (by rw [← this]; assumption)

/-- **C38.** For every interleaving of the two threads and any sizes of blocks and buffers: without compression the bytes sent are always a prefix
of the bytes written. -/
theorem C38_sent_prefix {t : List Ev} {s : St Z} (h : Exec c t s) (hc : compression t = .none) : sent t <+: written t := by
  obtain ⟨h1, h2⟩ := header_eq_written h
  rw [h1, h2 hc, List.append_nil]
  have hs := sinv_exec h
  cases hl : s.r.live with
  | true =>
    rcases hs.exact hl with ⟨_, _, h⟩ | ⟨hn, _⟩
    · rw [List.append_assoc] at h; exact ⟨_, h⟩
    · exact absurd (by rw [hs.comp hn, hs.next, hc]) hn
  | false =>
    rcases hs.good hl with h | ⟨hn, _⟩
    · exact h
    · exact absurd hc hn

/-- When the end of the data is signalled, `_done` is set, nothing is left in `_data`, and nothing is in flight. -/
theorem at_end {t : List Ev} {s s' : St Z} (h : Exec c t s) (hs : Step c (.gave []) s s') :
    s.r = .ret [] ∧ s.done = true ∧ s.data = [] ∧ s.w.block = none ∧ s.w.afterDone = true := by
  have hr : s.r = .ret [] := by cases hs; assumption
  have hi := inv_exec h
  have hl : s.r.live = true := by rw [hr]; rfl
  have hd : s.done = true := ((sinv_exec h).atEnd (by rw [hr]; rfl)).1
  have ha : s.w.afterDone = true := by rw [← hi.done hl]; exact hd
  refine ⟨hr, hd, hi.noData hl (.inr (.inl ?_)), ?_, ha⟩
  · revert ha; cases s.w <;> simp [WPos.afterDone, WPos.noData]
  · revert ha; cases s.w <;> simp [WPos.afterDone, WPos.block]

/-- **C38.** Without compression, when the end of the data is signalled, everything written has been sent: no byte lost, duplicated or out of order. -/
theorem C38_all_sent_at_end {t1 t2 : List Ev} {s : St Z} (h : Exec c (t1 ++ .gave [] :: t2) s) (hc : compression t1 = .none) :
    sent t1 = written t1 := by
  obtain ⟨s1, s2, hx, hs⟩ := exec_split h rfl
  obtain ⟨hr, hd, hdata, hb, -⟩ := at_end hx hs
  obtain ⟨h1, h2⟩ := header_eq_written hx
  rw [h1, h2 hc, List.append_nil]
  have hi := sinv_exec hx
  rcases hi.exact (by rw [hr]; rfl) with ⟨_, _, h⟩ | ⟨hn, _⟩
  · rw [hr] at h
    simpa [RPos.inflight, pend, hb, hdata] using h
  · exact absurd (by rw [hi.comp hn, hi.next, hc]) hn

/-- **C38.** The two threads never touch the shared block at the same time: while the network thread is between taking `_canRead` and releasing
`_canWrite` (with it in `curl_easy_perform`), the writer is not between taking `_canWrite` and releasing `_canRead`. -/
theorem C38_exclusive {t : List Ev} {s : St Z} (h : Exec c t s) (hl : s.r.live = true) :
    ¬ (s.w.holds = true ∧ s.r.holds s.reading = true) := by
  rintro ⟨h1, h2⟩
  have := (inv_exec h).token hl
  rw [h1, h2] at this
  simp at this

/-- The places in the code where `_data`, `_compression`, `_done` or the compressor are used are within those regions. -/
theorem C38_regions {t : List Ev} {s : St Z} (h : Exec c t s) :
    (∀ n, s.r = .produce n → s.r.holds s.reading = true) ∧ (∀ n out, s.r = .check n out → s.r.holds s.reading = true) ∧
    (∀ d, s.w = .setData d ∨ s.w = .setComp d → s.w.holds = true) ∧ (s.w = .aDone ∨ s.w = .aData → s.w.holds = true) := by
  have hi := inv_exec h
  refine ⟨fun n hr => ?_, fun n out hr => ?_, fun d hw => ?_, fun hw => ?_⟩
  · rw [hr]; exact hi.reading true (by rw [hr]; rfl)
  · rw [hr]; exact hi.reading true (by rw [hr]; rfl)
  · rcases hw with hw | hw <;> rw [hw] <;> rfl
  · rcases hw with hw | hw <;> rw [hw] <;> rfl

/-! ## The end of the data -/

/-- An event of the writer's side: a call or a return. -/
def Ev.ofWriter : Ev → Bool
  | .callWrite _ | .wrote _ | .refused _ | .setComp _ | .callAwait | .awaited => true
  | _ => false

/-- The writer is in `await`. -/
def WPos.inAwait : WPos → Bool
  | .aRun | .aTry | .aChk | .aDone | .aData | .aPost | .aJoin => true
  | _ => false

/-- `await` has been called, has not returned, and so nothing has been written since. -/
def Spec.InAwait (t : List Ev) : Prop := ∃ a b, t = a ++ .callAwait :: b ∧ ∀ e ∈ b, e.ofWriter = false

theorem inAwait_exec {t : List Ev} {s : St Z} (h : Exec c t s) : s.w.inAwait = true → InAwait t := by
  have key : ∀ {t e} (_ : Ev.ofWriter e = false), InAwait t → InAwait (t ++ [e]) := by
    rintro t e he ⟨a, b, rfl, hb⟩
    refine ⟨a, b ++ [e], by simp, fun x hx => ?_⟩
    rcases List.mem_append.1 hx with hx | hx
    · exact hb x hx
    · rw [List.mem_singleton.1 hx]; exact he
  induction h with
  | start z => nofun
  | @step t s s' e hx hs ih =>
    intro hw
    cases hs
    case callAwait => exact ⟨t, [], rfl, nofun⟩
    all_goals first
      | exact key rfl (ih hw)
      | (simp [WPos.inAwait] at hw; done)
      | (simp_all [WPos.inAwait]; done)
      | (refine key rfl (ih ?_); simp_all [WPos.inAwait]; done)

/-- **C39.** curl is told that there is no more data only while the writer is waiting in `await`, after its last `write`. -/
theorem C39_end_only_in_await {t1 t2 : List Ev} {s : St Z} (h : Exec c (t1 ++ .gave [] :: t2) s) : InAwait t1 := by
  obtain ⟨s1, s2, hx, hs⟩ := exec_split h rfl
  obtain ⟨-, -, -, -, ha⟩ := at_end hx hs
  refine inAwait_exec hx ?_
  revert ha; cases s1.w <;> simp [WPos.afterDone, WPos.inAwait]

/-! ## Writing after the network thread has ended -/

/-- Number of writes that returned true. -/
def Spec.accepted (t : List Ev) : Nat := t.countP (fun e => match e with | .wrote _ => true | _ => false)

/-- The writes that are yet to be accepted once the network thread is out of `curl_easy_perform`. -/
def WPos.holdsBlock : WPos → Bool
  | .setData _ | .setComp _ | .post _ => true
  | _ => false

/-- `Exec` from a given state on. -/
inductive ExecFrom (c : Codec Z) (s0 : St Z) : List Ev → St Z → Prop
  | start : ExecFrom c s0 [] s0
  | step {t : List Ev} {s s' : St Z} {e : Ev} : ExecFrom c s0 t s → Step c e s s' → ExecFrom c s0 (t ++ [e]) s'

theorem exec_from {t : List Ev} {s : St Z} (h : Exec c t s) : ∀ {t1 t2 : List Ev}, t = t1 ++ t2 →
    ∃ s1, Exec c t1 s1 ∧ ExecFrom c s1 t2 s := by
  induction h with
  | start z =>
    intro t1 t2 he
    have he' := List.append_eq_nil_iff.1 he.symm
    obtain ⟨rfl, rfl⟩ := he'
    exact ⟨_, .start z, .start⟩
  | @step t s s' e hx hs ih =>
    intro t1 t2 he
    rcases List.eq_nil_or_concat t2 with h | ⟨t3, x, h⟩
    · subst h
      rw [List.append_nil] at he; subst he
      exact ⟨_, .step hx hs, .start⟩
    · rw [List.concat_eq_append] at h; subst h
      rw [show t1 ++ (t3 ++ [x]) = (t1 ++ t3) ++ [x] by simp] at he
      obtain ⟨he2, hx'⟩ := List.append_inj' he rfl
      simp only [List.cons.injEq, and_true] at hx'; subst hx'
      obtain ⟨s1, h1, h2⟩ := ih he2
      exact ⟨s1, h1, .step h2 hs⟩

theorem dead_accepts {s0 s : St Z} {t : List Ev} (h : ExecFrom c s0 t s) (hd : s0.r.live = false)
    (ht : s0.canWrite.toNat + s0.w.holdsBlock.toNat ≤ 1) :
    s.r.live = false ∧ s.canWrite.toNat + s.w.holdsBlock.toNat + accepted t ≤ 1 := by
  induction h with
  | start => exact ⟨hd, by simpa [accepted] using ht⟩
  | @step t s s' e hx hs ih =>
    obtain ⟨ihd, iht⟩ := ih
    obtain ⟨cw, cr, rd, dn, cp, dt, cm, nx, z, w, r⟩ := s
    simp only [accepted, List.countP_append] at iht ⊢
    cases hs <;> simp only at * <;> subst_vars <;>
      simp_all [WPos.holdsBlock, RPos.live] <;> omega

/-- **C39.** The last claim, as far as it holds: after the network thread has ended, at most one more `write` returns true; every other one
returns false. -/
theorem C39_after_end_partial {t1 t2 : List Ev} {s : St Z} (h : Exec c (t1 ++ .ended :: t2) s) : accepted t2 ≤ 1 := by
  obtain ⟨s1, h1, h2⟩ := exec_from (t1 := t1 ++ [.ended]) (t2 := t2) h (by simp)
  suffices H : s1.r.live = false ∧ s1.canWrite.toNat + s1.w.holdsBlock.toNat ≤ 1 by
    have := (dead_accepts h2 H.1 H.2).2
    omega
  clear h h2
  -- the tokens just before the network thread left
  have key : ∀ {t s}, Exec c t s → s.canWrite.toNat + s.w.holdsBlock.toNat ≤ 1 := by
    intro t s h
    induction h with
    | start z => simp [start, WPos.holdsBlock]
    | @step t s s' e hx hs ih =>
      have hi := inv_exec hx
      obtain ⟨cw, cr, rd, dn, cp, dt, cm, nx, z, w, r⟩ := s
      cases hs <;> simp only at * <;> subst_vars <;> try (simp_all [WPos.holdsBlock]; done)
      case unlock n out hr =>
        have := hi.token rfl
        simp only [RPos.holds] at this
        cases w <;> simp [WPos.holds, WPos.holdsBlock] at this ⊢
  refine ⟨?_, key h1⟩
  obtain ⟨s0, s', hx, hs⟩ := exec_split h1 (t1 := t1) (t2 := []) rfl
  generalize ht : t1 ++ [Ev.ended] = t at h1
  cases h1 with
  | start z => simp at ht
  | step hx hs =>
    obtain ⟨-, h2⟩ := List.append_inj' ht rfl
    simp only [List.cons.injEq, and_true] at h2; subst h2
    cases hs; rfl

end Verif.Transport
