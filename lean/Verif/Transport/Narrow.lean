import Verif.Transport.Compress
import Verif.Transport.Progress

/-!
# The streaming upload: zlib's counters have 32 bits

`Step` is for any compressor. What the code makes of zlib is not quite zlib: `_zstrm.avail_in` has 32 bits, `remaining` has 64 (curlrequester.cpp 92-101).
-/

namespace Verif.Transport

open Spec

variable {Z : Type} {c : Codec Z}

/-- Lines 97-101 of curlrequester.cpp with zlib's `deflate`: `avail_in` is set to the lower 32 bits of the number of bytes that remain, and what is used up is the
difference of all that remain and what `deflate` leaves of `avail_in`. (Of `avail_out` nothing is cut off: curl's buffer has 2 MiB.) -/
def narrow (c : Codec Z) : Codec Z where
  init := c.init
  deflate z d n f :=
    let availIn := d.length % 4294967296
    let r := c.deflate z (d.take availIn) n f
    (r.1, d.length - (availIn - r.2.1), r.2.2)

/-- Every block is shorter than 4 GiB. -/
def Spec.Short (t : List Ev) : Prop := ∀ d, Ev.callWrite d ∈ t → d.length < 4294967296

/-! ## Proofs -/

/-- No state has a block of 4 GiB. -/
structure Small (s : St Z) : Prop where
  data : s.data.length < 4294967296
  tryW : ∀ d, s.w = .tryW d → d.length < 4294967296
  chk : ∀ d, s.w = .chk d → d.length < 4294967296
  setData : ∀ d, s.w = .setData d → d.length < 4294967296

theorem narrow_produce {s : St Z} (h : s.data.length < 4294967296) (n : Nat) : produceZ (narrow c) s n = produceZ c s n ∧
    produceData (narrow c) s n = produceData c s n ∧ produceOut (narrow c) s n = produceOut c s n := by
  have e : s.data.take (s.data.length % 4294967296) = s.data := by rw [Nat.mod_eq_of_lt h, List.take_length]
  refine ⟨?_, ?_, ?_⟩
  · unfold produceZ narrow
    simp only [e]
  · unfold produceData narrow
    simp only [Nat.mod_eq_of_lt h, List.take_length]
    split
    · generalize (c.deflate s.z s.data n s.done).2.1 = u
      by_cases hu : u ≤ s.data.length
      · rw [show s.data.length - (s.data.length - u) = u by omega]
      · rw [List.drop_eq_nil_of_le (by omega), List.drop_eq_nil_of_le (by omega)]
    · rfl
  · unfold produceOut narrow
    simp only [e]

theorem narrow_step {e : Ev} {s s' : St Z} (hs : Small s) (h : Step (narrow c) e s s') : Step c e s s' := by
  cases h with
  | callWrite _ d h => exact .callWrite _ d h
  | setCompression _ k h1 h2 => exact .setCompression _ k h1 h2
  | callAwait _ h => exact .callAwait _ h
  | lockOk _ d h1 h2 => exact .lockOk _ d h1 h2
  | lockFail _ d h1 h2 => exact .lockFail _ d h1 h2
  | chkDead _ d h1 h2 => exact .chkDead _ d h1 h2
  | chkAlive _ d h1 h2 => exact .chkAlive _ d h1 h2
  | setData _ d h1 => exact .setData _ d h1
  | setComp _ d h1 => exact .setComp _ d h1
  | post _ d h1 => exact .post _ d h1
  | runDead _ h1 h2 => exact .runDead _ h1 h2
  | runAlive _ h1 h2 => exact .runAlive _ h1 h2
  | tryOk _ h1 h2 => exact .tryOk _ h1 h2
  | tryFail _ h1 h2 => exact .tryFail _ h1 h2
  | againDead _ h1 h2 => exact .againDead _ h1 h2
  | againAlive _ h1 h2 => exact .againAlive _ h1 h2
  | aDone _ h1 => exact .aDone _ h1
  | aData _ h1 => exact .aData _ h1
  | aPost _ h1 => exact .aPost _ h1
  | aJoin _ h1 h2 => exact .aJoin _ h1 h2
  | request _ n h1 h2 => exact .request _ n h1 h2
  | lockRead _ n h1 h2 h3 => exact .lockRead _ n h1 h2 h3
  | noLock _ n h1 h2 => exact .noLock _ n h1 h2
  | mark _ n h1 => exact .mark _ n h1
  | produce _ n h1 =>
    obtain ⟨e1, e2, e3⟩ := narrow_produce (c := c) hs.data n
    rw [e1, e2, e3]
    exact .produce _ n h1
  | checkDone _ n out h1 h2 => exact .checkDone _ n out h1 h2
  | checkEnd _ n out h1 h2 h3 => exact .checkEnd _ n out h1 h2 h3
  | checkMore _ n out h1 h2 h3 => exact .checkMore _ n out h1 h2 h3
  | unlock _ n out h1 => exact .unlock _ n out h1
  | again _ n h1 => exact .again _ n h1
  | enough _ n out h1 h2 => exact .enough _ n out h1 h2
  | ret _ out h1 => exact .ret _ out h1
  | exit _ h1 => exact .exit _ h1
  | complete _ h1 => exact .complete _ h1

theorem small_step {e : Ev} {s s' : St Z} (hs : Small s) (h : Step c e s s') (he : ∀ d, e = .callWrite d → d.length < 4294967296) : Small s' := by
  obtain ⟨h1, h2, h3, h4⟩ := hs
  cases h with
  | callWrite _ d h => exact ⟨h1, fun d' e => by cases e; exact he d rfl, (fun d' e => by cases e), fun d' e => by cases e⟩
  | lockOk _ d h _ => exact ⟨h1, (fun d' e => by cases e), (fun d' e => by cases e), fun d' e => by cases e; exact h2 d h⟩
  | lockFail _ d h _ => exact ⟨h1, (fun d' e => by cases e), (fun d' e => by cases e; exact h2 d h), fun d' e => by cases e⟩
  | chkAlive _ d h _ => exact ⟨h1, (fun d' e => by cases e; exact h3 d h), (fun d' e => by cases e), fun d' e => by cases e⟩
  | setData _ d h => exact ⟨h4 d h, (fun d' e => by cases e), (fun d' e => by cases e), fun d' e => by cases e⟩
  | aData _ h => exact ⟨by simp, (fun d' e => by cases e), (fun d' e => by cases e), fun d' e => by cases e⟩
  | produce _ n h =>
    refine ⟨?_, h2, h3, h4⟩
    show (produceData c s n).length < _
    unfold produceData
    split <;> (rw [List.length_drop]; omega)
  | setCompression _ _ h => exact ⟨h1, h2, h3, h4⟩
  | request | lockRead | noLock | mark | checkDone | checkEnd | checkMore | unlock | again | enough | ret | exit | complete => exact ⟨h1, h2, h3, h4⟩
  | _ => exact ⟨h1, (fun d' e => by cases e), (fun d' e => by cases e), fun d' e => by cases e⟩

/-- As long as every block is shorter than 4 GiB, what happens is what happens with zlib. -/
theorem narrow_exec {t : List Ev} {s : St Z} (h : Exec (narrow c) t s) (ht : Short t) : Exec c t s ∧ Small s := by
  induction h with
  | start z => exact ⟨.start z, ⟨by simp [start], (fun d e => by cases e), (fun d e => by cases e), fun d e => by cases e⟩⟩
  | step _ hs ih =>
    obtain ⟨h1, h2⟩ := ih (fun d hd => ht d (List.mem_append_left _ hd))
    have hs' := narrow_step h2 hs
    exact ⟨h1.step hs', small_step h2 hs' (fun d e => ht d (by rw [e]; simp))⟩

/-- What is asked of the compressor for C39 (every block is taken, and the transfer ends) the narrow counters keep. -/
theorem sound_narrow (h : Sound c) : Sound (narrow c) := by
  have hu : ∀ z (d : Bytes) n f, (c.deflate z (d.take (d.length % 4294967296)) n f).2.1 ≤ d.length % 4294967296 := fun z d n f => by
    have := h.used_le z (d.take (d.length % 4294967296)) n f
    rw [List.length_take] at this
    omega
  refine ⟨fun z d n f => Nat.sub_le _ _, fun z d n hn hd => ?_, ?_⟩
  · have hl : 0 < d.length := List.length_pos_iff.2 hd
    have hm : d.length % 4294967296 ≤ d.length := Nat.mod_le _ _
    by_cases h0 : d.length % 4294967296 = 0
    · left
      show d.length - (d.length % 4294967296 - _) ≠ 0
      omega
    · rcases h.advances z (d.take (d.length % 4294967296)) n hn (by
        intro e
        have := congrArg List.length e
        rw [List.length_take] at this
        simp only [List.length_nil] at this
        omega) with h1 | h1
      · left
        have := hu z d n false
        show d.length - (d.length % 4294967296 - (c.deflate z (d.take (d.length % 4294967296)) n false).2.1) ≠ 0
        omega
      · exact .inr h1
  · obtain ⟨bound, k, hb⟩ := h.bounded
    refine ⟨bound, k, fun z d n f => ?_⟩
    have h1 := hb z (d.take (d.length % 4294967296)) n f
    have h2 := hu z d n f
    have hm : d.length % 4294967296 ≤ d.length := Nat.mod_le _ _
    refine Nat.le_trans h1 (Nat.add_le_add_left (Nat.mul_le_mul_left _ ?_) _)
    show _ ≤ d.length - (d.length % 4294967296 - (c.deflate z (d.take (d.length % 4294967296)) n f).2.1)
    omega

/-- **C40.** With zlib and its counters of 32 bits: when every block that is written is shorter than 4 GiB, at every moment what has been sent is a prefix of what was written before the
compression was set, or all of that and output of zlib for a prefix of what was written after it; and when the end of the data is signalled and something was written after the compression
was set, zlib was given exactly that, and has finished. -/
theorem C40_zlib_partial {t : List Ev} {s : St Z} (h : Exec (narrow c) t s) (ht : Short t) :
    (sent t <+: header t ∨ (compression t ≠ .none ∧ ∃ z zi zo f, Run c (compression t) z zi zo f ∧ zi <+: document t ∧ sent t <+: header t ++ zo)) ∧
    ∀ t1 t2, t = t1 ++ .gave [] :: t2 → DocumentWritten t1 → ∃ zo, Finished c (compression t1) (document t1) zo ∧ sent t1 = header t1 ++ zo := by
  obtain ⟨hx, _⟩ := narrow_exec h ht
  refine ⟨C40_sent hx, fun t1 t2 e hd => ?_⟩
  subst e
  exact C40_compressed_at_end_partial hx hd

/-! ## A block of 4 GiB -/

theorem step_produce {e : Codec Z} {s : St Z} {n : Nat} {z : Z} {d o : Bytes} (hr : s.r = .produce n) (h1 : produceZ e s n = z) (h2 : produceData e s n = d)
    (h3 : produceOut e s n = o) : Step e .tau s { s with z := z, data := d, r := .check n o } := by
  subst h1 h2 h3
  exact .produce s n hr

theorem narrow_zero {d : Bytes} (hd : d.length = 4294967296) {s : St Bool} {n : Nat} {k : Comp} (h1 : s.data = d) (h2 : s.comp = k) (hk : k = .gzip) (h3 : s.z = false)
    (h4 : s.done = false) : produceZ (narrow marker) s n = false ∧ produceData (narrow marker) s n = [] ∧ produceOut (narrow marker) s n = [] := by
  subst hk
  simp [produceZ, produceData, produceOut, narrow, marker, h1, h2, h3, h4, hd]

/-- What happens with a compressor for a block of exactly 4 GiB: the block is put aside. -/
def lostTrace (d : Bytes) : List Ev :=
  [.setComp .gzip, .callWrite d, .tau, .tau, .tau, .wrote d, .request 5, .tau, .tau, .tau, .tau, .tau, .tau,
    .callAwait, .tau, .tau, .tau, .tau, .tau, .tau, .tau, .tau, .tau, .gave [255], .request 5, .tau, .tau, .tau]

theorem lost_exec (d : Bytes) (hd : d.length = 4294967296) : ∃ s, Exec (narrow marker) (lostTrace d ++ .gave [] :: []) s := by
  have a : Exec (narrow marker) [.setComp .gzip, .callWrite d, .tau, .tau, .tau, .wrote d] ⟨false, true, false, false, false, d, .gzip, .gzip, false, .idle, .outside⟩ :=
    (((((Exec.start (c := narrow marker) false).step (.setCompression _ .gzip rfl rfl)).step (.callWrite _ d rfl)).step (.lockOk _ d rfl rfl)).step
      (.setData _ d rfl)).step (.setComp _ d rfl) |>.step (.post _ d rfl)
  have a : Exec (narrow marker) ([.setComp .gzip, .callWrite d, .tau, .tau, .tau, .wrote d] ++ [.request 5] ++ [.tau] ++ [.tau] ++ [.tau])
      ⟨false, false, true, false, false, [], .gzip, .gzip, false, .idle, .check 5 []⟩ :=
    (((a.step (.request _ 5 rfl (by decide))).step (.lockRead _ 5 rfl rfl rfl)).step (.mark _ 5 rfl)).step
      (step_produce (z := false) (d := []) (o := []) (n := 5) rfl (narrow_zero hd rfl rfl rfl rfl rfl).1 (narrow_zero hd rfl rfl rfl rfl rfl).2.1
        (narrow_zero hd rfl rfl rfl rfl rfl).2.2)
  have a : Exec (narrow marker) (_ ++ [.tau] ++ [.tau] ++ [.tau] ++ [.callAwait] ++ [.tau] ++ [.tau] ++ [.tau] ++ [.tau] ++ [.tau])
      ⟨false, true, false, true, false, [], .gzip, .gzip, false, .aJoin, .enter 5⟩ :=
    ((((((((a.step (.checkEnd _ 5 [] rfl rfl rfl)).step (.unlock _ 5 [] rfl)).step (.again _ 5 rfl)).step (.callAwait _ rfl)).step (.runAlive _ rfl rfl)).step
      (.tryOk _ rfl rfl)).step (.aDone _ rfl)).step (.aData _ rfl)).step (.aPost _ rfl)
  have a : Exec (narrow marker) (_ ++ [.tau] ++ [.tau] ++ [.tau] ++ [.tau] ++ [.gave [255]]) ⟨false, false, true, true, false, [], .gzip, .gzip, true, .aJoin, .outside⟩ :=
    ((((a.step (.lockRead _ 5 rfl rfl rfl)).step (.mark _ 5 rfl)).step (step_produce (z := true) (d := []) (o := [255]) (n := 5) rfl rfl rfl rfl)).step
      (.checkDone _ 5 [255] rfl rfl)).step (.ret _ [255] rfl)
  have a := ((((a.step (.request _ 5 rfl (by decide))).step (.noLock _ 5 rfl rfl)).step (step_produce (z := true) (d := []) (o := []) (n := 5) rfl rfl rfl rfl)).step
    (.checkDone _ 5 [] rfl rfl)).step (.ret _ [] rfl)
  simp only [List.cons_append, List.nil_append] at a
  exact ⟨_, a⟩

theorem marker_all {k : Comp} {z : Bool} {i o : Bytes} {f : Bool} (h : Run marker k z i o f) : i.length ≤ o.length := by
  induction h with
  | start => simp
  | feed _ ih =>
    simp only [marker]
    split <;> simp <;> omega
  | finish _ ih =>
    simp only [marker]
    split <;> simp <;> omega

/-- **C40.** For blocks of 4 GiB the claim is false: the length of the block does not fit in zlib's counter, and a block of exactly 4 GiB goes lost (of longer ones
every 4 GiB but the rest), while the end of the data is signalled as ever. -/
theorem C40_large_false :
    ¬ ∀ (t1 t2 : List Ev) (s : St Bool), Exec (narrow marker) (t1 ++ .gave [] :: t2) s → DocumentWritten t1 →
      ∃ zo, Finished marker (compression t1) (document t1) zo ∧ sent t1 = header t1 ++ zo := by
  intro h
  generalize hd : List.replicate 4294967296 (7 : UInt8) = d
  have hl : d.length = 4294967296 := by rw [← hd, List.length_replicate]
  clear hd
  obtain ⟨s, hs⟩ := lost_exec d hl
  obtain ⟨zo, ⟨z, f, n, hr, _⟩, he⟩ := h (lostTrace d) [] s hs ⟨[.setComp .gzip, .callWrite d, .tau, .tau, .tau], _, d, rfl, fun e => Comp.noConfusion (show Comp.gzip = Comp.none from e)⟩
  have h1 := marker_all hr
  have e1 : sent (lostTrace d) = [255] := rfl
  have e2 : header (lostTrace d) = [] := rfl
  have e3 : document (lostTrace d) = d := rfl
  rw [e1, e2, List.nil_append] at he
  rw [e3, hl, ← he] at h1
  simp at h1

/-- Short blocks, through the compressor with narrow counters. -/
example : Short [.callWrite [1], .tau, .tau, .tau, .wrote [1]] ∧ ∃ s, Exec (narrow marker) [.callWrite [1], .tau, .tau, .tau, .wrote [1]] s := by
  refine ⟨fun d hd => ?_, _, ((((Exec.start (c := narrow marker) false).step (.callWrite _ [1] rfl)).step (.lockOk _ _ rfl rfl)).step (.setData _ _ rfl)).step
    (.setComp _ _ rfl) |>.step (.post _ _ rfl)⟩
  simp only [List.mem_cons, List.not_mem_nil, or_false, Ev.callWrite.injEq, reduceCtorEq] at hd
  subst hd
  decide

end Verif.Transport
