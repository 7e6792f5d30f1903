import Verif.Transport.Props

/-! # The streaming upload: compression -/

namespace Verif.Transport

open Spec

variable {Z : Type} {c : Codec Z}

/-- **C40.** At every moment: what has been sent is a prefix of what was written before the compression was set, or it is all of that followed by
output of the one compressor, which took in a prefix of what was written after the compression was set, each byte once and in order. -/
theorem C40_sent {t : List Ev} {s : St Z} (h : Exec c t s) :
    sent t <+: header t ∨ (compression t ≠ .none ∧ ∃ z zi zo f, Run c (compression t) z zi zo f ∧ zi <+: document t ∧
      sent t <+: header t ++ zo) := by
  have hs := sinv_exec h
  cases hl : s.r.live with
  | true =>
    rcases hs.exact hl with ⟨_, _, h⟩ | ⟨hn, zi, zo, f, hr, _, h1, h2⟩
    · rw [List.append_assoc] at h; exact .inl ⟨_, h⟩
    · have hc : s.comp = compression t := by rw [hs.comp hn, hs.next]
      rw [hc] at hr hn
      exact .inr ⟨hn, _, zi, zo, f, hr, ⟨_, h2⟩, ⟨_, h1⟩⟩
  | false =>
    rcases hs.good hl with h | ⟨hn, z, zi, zo, f, hr, h1, h2⟩
    · exact .inl h
    · exact .inr ⟨hn, z, zi, zo, f, hr, h2, by rw [h1]; exact List.prefix_rfl⟩

/-- A block (perhaps an empty one) has been written after the compression was set. -/
def Spec.DocumentWritten (t : List Ev) : Prop := ∃ a b d, t = a ++ .wrote d :: b ∧ compression a ≠ .none

theorem documentWritten_exec {t : List Ev} {s : St Z} (h : Exec c t s) : DocumentWritten t → s.comp ≠ .none := by
  induction h with
  | start z => rintro ⟨a, b, d, h, -⟩; simp at h
  | @step t s s' e hx hs ih =>
    rintro ⟨a, b, d, he, ha⟩
    have hi := sinv_exec hx
    rcases List.eq_nil_or_concat b with h | ⟨b', x, h⟩
    · subst h
      obtain ⟨rfl, h2⟩ := List.append_inj' he rfl
      simp only [List.cons.injEq, and_true] at h2; subst h2
      cases hs with
      | post _ _ hw =>
        have := hi.post d (by assumption)
        show s.comp ≠ .none
        rw [this, hi.next]; exact ha
    · rw [List.concat_eq_append] at h; subst h
      rw [show a ++ Ev.wrote d :: (b' ++ [x]) = (a ++ Ev.wrote d :: b') ++ [x] by simp] at he
      have hn := ih ⟨a, b', d, (List.append_inj' he rfl).1, ha⟩
      cases hs <;> try exact hn
      case setComp => show s.next ≠ .none; rw [← hi.comp hn]; exact hn

/-- **C40.** When the end of the data is signalled and something was written after the compression was set: what was written before it has been sent
as it was, followed by the output of the one compressor, which took in exactly what was written after it, each byte once and in order, and which was
asked to finish until it had nothing left. -/
theorem C40_compressed_at_end_partial {t1 t2 : List Ev} {s : St Z} (h : Exec c (t1 ++ .gave [] :: t2) s)
    (hd : DocumentWritten t1) :
    ∃ zo, Finished c (compression t1) (document t1) zo ∧ sent t1 = header t1 ++ zo := by
  obtain ⟨s1, s2, hx, hs⟩ := exec_split h rfl
  have hr := (at_end hx hs).1
  have hi := sinv_exec hx
  have hn := documentWritten_exec hx hd
  have := (hi.atEnd (by rw [hr]; rfl)).2 hn
  rwa [hi.comp hn, hi.next] at this

/-! ## An empty document -/

/-- A compressor that copies its input, and ends its output with the byte 255. -/
def marker : Codec Bool where
  init _ := false
  deflate z d n f :=
    if f = true ∧ z = false ∧ d.length < n then (true, d.length, d ++ [255]) else (z, min n d.length, d.take n)

theorem marker_run {k : Comp} {z : Bool} {i o : Bytes} {f : Bool} (h : Run marker k z i o f) : z = true → o ≠ [] := by
  induction h with
  | start => nofun
  | feed _ ih => simp only [marker]; intro hz; simp at hz ⊢; simp [ih hz]
  | finish _ ih =>
    simp only [marker]; intro hz
    split at hz
    · split <;> simp_all
    · rename_i hc; rw [if_neg hc]; simp at hz ⊢; simp [ih hz]

/-- **C40.** Without the assumption that something was written after the compression was set the claim is false: if nothing was, the data stream is
not a compressed empty document but nothing at all. -/
theorem C40_compressed_at_end_false :
    ¬ ∀ (t1 t2 : List Ev) (s : St Bool), Exec marker (t1 ++ .gave [] :: t2) s → compression t1 ≠ .none →
      ∃ zo, Finished marker (compression t1) (document t1) zo ∧ sent t1 = header t1 ++ zo := by
  intro h
  have hx : Exec marker (([.setComp .gzip, .callAwait, .tau, .tau, .tau, .tau, .tau, .request 5, .tau, .tau, .tau, .tau] : List Ev) ++
      Ev.gave [] :: []) _ :=
    ((((((((((((Exec.start (c := marker) false).step (.setCompression _ .gzip rfl rfl)).step (.callAwait _ rfl)).step (.runAlive _ rfl rfl)).step
      (.tryOk _ rfl rfl)).step (.aDone _ rfl)).step (.aData _ rfl)).step (.aPost _ rfl)).step (.request _ 5 rfl (by decide))).step
      (.lockRead _ 5 rfl rfl rfl)).step (.mark _ 5 rfl)).step (.produce _ 5 rfl)).step (.checkDone _ 5 _ rfl rfl) |>.step (.ret _ [] rfl)
  obtain ⟨zo, ⟨z, f, n, hr, hn, he⟩, hs⟩ := h _ _ _ hx (by decide)
  have hz : zo = [] := by simpa [sent, header, parts] using hs
  subst hz
  have : z = false := by
    cases z with
    | false => rfl
    | true => exact absurd rfl (marker_run hr rfl)
  subst this
  simp [marker, hn] at he

/-- The hypotheses of `C40_compressed_at_end_partial` are met: a header and a document of two bytes. -/
example : ∃ t, (∃ s, Exec marker (t ++ .gave [] :: []) s) ∧ DocumentWritten t ∧ header t = [1] ∧ document t = [2, 3] ∧
    sent t = [1, 2, 3, 255] := by
  refine ⟨[.callWrite [1], .tau, .tau, .tau, .wrote [1], .request 5, .tau, .tau, .tau, .tau, .tau, .tau, .gave [1],
    .setComp .gzip, .callWrite [2, 3], .tau, .tau, .tau, .wrote [2, 3], .request 5, .tau, .tau, .tau, .tau, .tau, .tau, .gave [2, 3],
    .callAwait, .tau, .tau, .tau, .tau, .tau, .request 5, .tau, .tau, .tau, .tau, .gave [255], .request 5, .tau, .tau, .tau],
    ?_, ⟨[.callWrite [1], .tau, .tau, .tau, .wrote [1], .request 5, .tau, .tau, .tau, .tau, .tau, .tau, .gave [1],
    .setComp .gzip, .callWrite [2, 3], .tau, .tau, .tau], _, [2, 3], rfl, by decide⟩, rfl, rfl, rfl⟩
  have a := ((((Exec.start (c := marker) false).step (.callWrite _ [1] rfl)).step (.lockOk _ _ rfl rfl)).step (.setData _ _ rfl)).step
    (.setComp _ _ rfl) |>.step (.post _ _ rfl)
  have a := (((((((a.step (.request _ 5 rfl (by decide))).step (.lockRead _ 5 rfl rfl rfl)).step (.mark _ 5 rfl)).step (.produce _ 5 rfl)).step
    (.checkEnd _ 5 _ rfl rfl rfl)).step (.unlock _ 5 _ rfl)).step (.enough _ 5 _ rfl (by decide))).step (.ret _ _ rfl)
  have a := (((((a.step (.setCompression _ .gzip rfl rfl)).step (.callWrite _ [2, 3] rfl)).step (.lockOk _ _ rfl rfl)).step
    (.setData _ _ rfl)).step (.setComp _ _ rfl)).step (.post _ _ rfl)
  have a := (((((((a.step (.request _ 5 rfl (by decide))).step (.lockRead _ 5 rfl rfl rfl)).step (.mark _ 5 rfl)).step (.produce _ 5 rfl)).step
    (.checkEnd _ 5 _ rfl rfl rfl)).step (.unlock _ 5 _ rfl)).step (.enough _ 5 _ rfl (by decide))).step (.ret _ _ rfl)
  have a := (((((a.step (.callAwait _ rfl)).step (.runAlive _ rfl rfl)).step (.tryOk _ rfl rfl)).step (.aDone _ rfl)).step
    (.aData _ rfl)).step (.aPost _ rfl)
  have a := (((((a.step (.request _ 5 rfl (by decide))).step (.lockRead _ 5 rfl rfl rfl)).step (.mark _ 5 rfl)).step (.produce _ 5 rfl)).step
    (.checkDone _ 5 _ rfl rfl)).step (.ret _ _ rfl)
  exact ⟨_, ((((a.step (.request _ 5 rfl (by decide))).step (.noLock _ 5 rfl rfl)).step (.produce _ 5 rfl)).step
    (.checkDone _ 5 _ rfl rfl)).step (.ret _ _ rfl)⟩

/-! ## Witnesses for the theorems of `Props` -/

/-- **C39.** The claim that every `write` called after the network thread has ended returns false is false: when nobody holds `_canWrite` at that
time (for example because the connection failed before anything was written), the first such `write` returns true, and its data is never sent. -/
theorem C39_after_end_false :
    ¬ ∀ (t1 t2 t3 : List Ev) (d : Bytes) (s : St Bool), Exec marker (t1 ++ .ended :: t2 ++ .callWrite d :: t3) s → Ev.wrote d ∉ t3 := by
  intro h
  exact h [.exit] [] [.tau, .tau, .tau, .wrote [1]] [1] _
    (((((((Exec.start (c := marker) false).step (.exit _ rfl)).step (.complete _ rfl)).step (.callWrite _ [1] rfl)).step
    (.lockOk _ _ rfl rfl)).step (.setData _ _ rfl)).step (.setComp _ _ rfl) |>.step (.post _ _ rfl)) (by decide)

/-- The hypothesis of `C39_after_end_partial` is met with one write accepted and one refused. -/
example : ∃ s, Exec marker ([.exit] ++ .ended :: [.callWrite [1], .tau, .tau, .tau, .wrote [1], .callWrite [2], .tau, .refused [2]]) s :=
  ⟨_, (((((((((Exec.start (c := marker) false).step (.exit _ rfl)).step (.complete _ rfl)).step (.callWrite _ [1] rfl)).step
    (.lockOk _ _ rfl rfl)).step (.setData _ _ rfl)).step (.setComp _ _ rfl)).step (.post _ _ rfl)).step (.callWrite _ [2] rfl)).step
    (.lockFail _ _ rfl rfl) |>.step (.chkDead _ _ rfl rfl)⟩

/-- The hypotheses of the theorems of C38 and of `C39_end_only_in_await` are met: three bytes sent through a buffer of two. -/
example : ∃ t, (∃ s, Exec marker (t ++ .gave [] :: []) s) ∧ compression t = .none ∧ written t = [1, 2, 3] ∧ sent t = [1, 2, 3] := by
  refine ⟨[.callWrite [1, 2, 3], .tau, .tau, .tau, .wrote [1, 2, 3], .request 2, .tau, .tau, .tau, .tau, .tau, .gave [1, 2],
    .request 2, .tau, .tau, .tau, .tau, .tau, .gave [3], .callAwait, .tau, .tau, .tau, .tau, .tau, .request 2, .tau, .tau, .tau, .tau],
    ?_, rfl, rfl, rfl⟩
  have a := ((((Exec.start (c := marker) false).step (.callWrite _ [1, 2, 3] rfl)).step (.lockOk _ _ rfl rfl)).step (.setData _ _ rfl)).step
    (.setComp _ _ rfl) |>.step (.post _ _ rfl)
  have a := ((((((a.step (.request _ 2 rfl (by decide))).step (.lockRead _ 2 rfl rfl rfl)).step (.mark _ 2 rfl)).step (.produce _ 2 rfl)).step
    (.checkMore _ 2 _ rfl rfl (by decide))).step (.enough _ 2 _ rfl (by decide))).step (.ret _ _ rfl)
  have a := ((((((a.step (.request _ 2 rfl (by decide))).step (.noLock _ 2 rfl rfl)).step (.produce _ 2 rfl)).step
    (.checkEnd _ 2 _ rfl rfl rfl)).step (.unlock _ 2 _ rfl)).step (.enough _ 2 _ rfl (by decide))).step (.ret _ _ rfl)
  have a := (((((a.step (.callAwait _ rfl)).step (.runAlive _ rfl rfl)).step (.tryOk _ rfl rfl)).step (.aDone _ rfl)).step
    (.aData _ rfl)).step (.aPost _ rfl)
  exact ⟨_, (((((a.step (.request _ 2 rfl (by decide))).step (.lockRead _ 2 rfl rfl rfl)).step (.mark _ 2 rfl)).step (.produce _ 2 rfl)).step
    (.checkDone _ 2 _ rfl rfl)).step (.ret _ _ rfl)⟩

end Verif.Transport
