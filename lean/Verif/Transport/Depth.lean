import Verif.Transport.Narrow

/-!
# How deep `requestWrite` calls itself (C122)

When nothing was put into curl's buffer and the data is not at its end, `requestWrite` calls itself and waits for the next block (curlrequester.cpp 124-129). A compiler may make a loop of this
call, as it is the last thing done; the C++ standard does not ask for it.
-/

namespace Verif.Transport

open Spec

variable {Z : Type} {c : Codec Z}

/-! ## Model -/

/-- How many calls of `requestWrite` have not returned, after a step: curl calls it (curlrequester.h 92-96), it calls itself (curlrequester.cpp 128), or all of them return (131). -/
def depthAfter (r r' : RPos) (k : Nat) : Nat :=
  match r, r' with
  | .outside, .enter _ => 1
  | .again _ _, .enter _ => k + 1
  | .ret _, .outside => 0
  | _, _ => k

/-- The executions, with the number of calls of `requestWrite` that have not returned -/
inductive Deep {Z : Type} (c : Codec Z) : List Ev → St Z → Nat → Prop
  | start (z : Z) : Deep c [] (start z) 0
  | step {t : List Ev} {s s' : St Z} {e : Ev} {k : Nat} : Deep c t s k → Step c e s s' → Deep c (t ++ [e]) s' (depthAfter s.r s'.r k)

/-! ## Specification -/

namespace Spec

/-- How many blocks were written since curl asked for data the last time -/
def wroteSince (t : List Ev) : Nat := t.foldl (fun k e => match e with | .request _ => 0 | .wrote _ => k + 1 | _ => k) 0

/-- What zlib promises: unless it is to finish, it takes in all there is, or fills the buffer. -/
def Greedy (c : Codec Z) : Prop := ∀ z d n, 0 < n → (c.deflate z d n false).2.2.length < n → (c.deflate z d n false).2.1 = d.length

end Spec

/-! ## Proofs -/

theorem Deep.exec {t : List Ev} {s : St Z} {k : Nat} (h : Deep c t s k) : Exec c t s := by
  induction h with
  | start z => exact .start z
  | step _ hs ih => exact .step ih hs

theorem Exec.deep {t : List Ev} {s : St Z} (h : Exec c t s) : ∃ k, Deep c t s k := by
  induction h with
  | start z => exact ⟨0, .start z⟩
  | step _ hs ih => obtain ⟨k, hk⟩ := ih; exact ⟨_, .step hk hs⟩

theorem wroteSince_snoc (t : List Ev) (e : Ev) :
    wroteSince (t ++ [e]) = match e with | .request _ => 0 | .wrote _ => wroteSince t + 1 | _ => wroteSince t := by
  simp only [wroteSince, List.foldl_append, List.foldl_cons, List.foldl_nil]

/-- The network thread is in `requestWrite`. -/
def RPos.inCall : RPos → Bool
  | .outside | .exiting | .ended => false
  | _ => true

/-- `requestWrite` is about to call itself. -/
def RPos.callsAgain : RPos → Bool
  | .again _ [] => true
  | _ => false

/-- A block that can be read or is being read -/
def readable (s : St Z) : Nat := if s.w.afterDone = true then 0 else s.canRead.toNat + (s.r.holds s.reading).toNat

structure DInv (t : List Ev) (s : St Z) (k : Nat) : Prop where
  used : ∀ n, s.r = .check n [] → s.done = true ∨ s.data = []
  deep : s.r.inCall = true → k + s.r.callsAgain.toNat + readable s ≤ wroteSince t + 2
  out : s.r.inCall = false → k = 0

theorem produce_used (hg : Greedy c) {s : St Z} {n : Nat} (hn : 0 < n) (hd : s.done = false) (h : produceOut c s n = []) : produceData c s n = [] := by
  unfold produceOut at h
  unfold produceData
  by_cases hc : s.comp ≠ .none
  · rw [if_pos hc] at h ⊢
    rw [hd] at h ⊢
    rw [hg s.z s.data n hn (by rw [h]; exact hn)]
    simp
  · rw [if_neg hc] at h ⊢
    cases hx : s.data with
    | nil => simp
    | cons a r => rw [hx] at h; cases n with
      | zero => omega
      | succ n => simp at h

theorem dinv_start (z : Z) : DInv [] (start z) 0 := by
  constructor <;> simp [start, RPos.inCall]

theorem depthAfter_same (r : RPos) (k : Nat) : depthAfter r r k = k := by cases r <;> rfl

theorem dinv_writer {t : List Ev} {e : Ev} {s s' : St Z} {k : Nat} (hd : DInv t s k) (hr : s'.r = s.r)
    (hu : ∀ n, s.r = .check n [] → s.done = true ∨ s.data = [] → s'.done = true ∨ s'.data = [])
    (hp : s.r.inCall = true → readable s' + wroteSince t ≤ readable s + wroteSince (t ++ [e])) : DInv (t ++ [e]) s' (depthAfter s.r s'.r k) := by
  rw [hr, depthAfter_same]
  refine ⟨fun n hn => ?_, fun hc => ?_, fun hc => ?_⟩
  · rw [hr] at hn; exact hu n hn (hd.used n hn)
  · rw [hr] at hc ⊢
    have := hd.deep hc
    have := hp hc
    omega
  · rw [hr] at hc; exact hd.out hc

theorem dinv_step (hg : Greedy c) {t : List Ev} {e : Ev} {s s' : St Z} {k : Nat} (hi : Inv s) (hs : ∀ n, s.r.size = some n → 0 < n) (hd : DInv t s k) (h : Step c e s s') :
    DInv (t ++ [e]) s' (depthAfter s.r s'.r k) := by
  cases h
  case callWrite hw | callAwait hw | lockOk hw _ | lockFail hw _ | chkDead hw _ | chkAlive hw _ | setComp hw | post hw | runDead hw _ | runAlive hw _ | tryOk hw _ | tryFail hw _ |
      againDead hw _ | againAlive hw _ | aDone hw | aData hw | aPost hw | setCompression hw _ =>
    refine dinv_writer hd rfl (fun n hn h => by simp_all) (fun hc => ?_)
    simp only [readable, hw, WPos.afterDone, wroteSince_snoc]
    first | omega | (simp; done) | (simp; omega)
  case setData d hw =>
    refine dinv_writer hd rfl (fun n hn h => ?_) (fun hc => by simp [readable, hw, WPos.afterDone, wroteSince_snoc])
    exfalso
    have h1 := hi.reading true (by rw [hn]; rfl)
    have h2 := hi.token (by rw [hn]; rfl)
    simp [hn, hw, h1, RPos.holds, WPos.holds] at h2
  case aJoin hw hr => exact ⟨fun n hn => by simp [hr] at hn, fun hc => by simp [hr, RPos.inCall] at hc, fun _ => by simpa [hr, depthAfter] using hd.out (by simp [hr, RPos.inCall])⟩
  case exit hr => exact ⟨nofun, nofun, fun _ => by simpa [hr, depthAfter] using hd.out (by simp [hr, RPos.inCall])⟩
  case complete hr => exact ⟨nofun, nofun, fun _ => by simpa [hr, depthAfter] using hd.out (by simp [hr, RPos.inCall])⟩
  case ret out hr => exact ⟨nofun, nofun, fun _ => by simp [hr, depthAfter]⟩
  case request n hn hr =>
    have ht := hi.token (by rw [hr]; rfl)
    refine ⟨nofun, fun _ => ?_, nofun⟩
    simp only [hr, depthAfter, RPos.callsAgain, wroteSince_snoc, readable, RPos.holds] at ht ⊢
    split <;> simp <;> omega
  case lockRead n hr h1 h2 =>
    have := hd.deep (by rw [hr]; rfl)
    refine ⟨nofun, fun _ => ?_, nofun⟩
    simp only [hr, depthAfter, RPos.callsAgain, wroteSince_snoc, readable, RPos.holds, h1, h2] at this ⊢
    simpa using this
  case noLock n hr h1 =>
    have := hd.deep (by rw [hr]; rfl)
    refine ⟨nofun, fun _ => ?_, nofun⟩
    simpa only [hr, depthAfter, RPos.callsAgain, wroteSince_snoc, readable, RPos.holds, h1] using this
  case mark n hr =>
    have := hd.deep (by rw [hr]; rfl)
    refine ⟨nofun, fun _ => ?_, nofun⟩
    simpa only [hr, depthAfter, RPos.callsAgain, wroteSince_snoc, readable, RPos.holds] using this
  case produce n hr =>
    have := hd.deep (by rw [hr]; rfl)
    refine ⟨fun m hm => ?_, fun _ => ?_, nofun⟩
    · simp only [RPos.check.injEq] at hm
      cases hdn : s.done with
      | true => exact .inl rfl
      | false => exact .inr (produce_used hg (hs n (by rw [hr]; rfl)) hdn hm.2)
    · simpa only [hr, depthAfter, RPos.callsAgain, wroteSince_snoc, readable, RPos.holds] using this
  case checkDone n out hr h1 =>
    have := hd.deep (by rw [hr]; rfl)
    refine ⟨nofun, fun _ => ?_, nofun⟩
    simpa only [hr, depthAfter, RPos.callsAgain, wroteSince_snoc, readable, RPos.holds] using this
  case checkEnd n out hr h1 h2 =>
    have := hd.deep (by rw [hr]; rfl)
    have h3 := hi.reading true (by rw [hr]; rfl)
    refine ⟨nofun, fun _ => ?_, nofun⟩
    simpa only [hr, depthAfter, RPos.callsAgain, wroteSince_snoc, readable, RPos.holds, h3] using this
  case checkMore n out hr h1 h2 =>
    have := hd.deep (by rw [hr]; rfl)
    have ho : out ≠ [] := by
      intro ho
      subst ho
      rcases hd.used n hr with h | h
      · rw [h1] at h; cases h
      · exact h2 h
    refine ⟨nofun, fun _ => ?_, nofun⟩
    cases out with
    | nil => exact absurd rfl ho
    | cons a r => simpa only [hr, depthAfter, RPos.callsAgain, wroteSince_snoc, readable, RPos.holds] using this
  case unlock n out hr =>
    have := hd.deep (by rw [hr]; rfl)
    have h3 := hi.reading false (by rw [hr]; rfl)
    have hc : s.w.afterDone = false := by
      cases hc : s.w.afterDone with
      | false => rfl
      | true => exact absurd hr ((hi.closed (by rw [hr]; rfl) hc).2 n out)
    refine ⟨nofun, fun _ => ?_, nofun⟩
    simp only [hr, depthAfter, wroteSince_snoc, readable, RPos.holds, h3, hc] at this ⊢
    cases out <;> simp [RPos.callsAgain] at this ⊢ <;> omega
  case again n hr =>
    have := hd.deep (by rw [hr]; rfl)
    refine ⟨nofun, fun _ => ?_, nofun⟩
    simpa only [hr, depthAfter, RPos.callsAgain, wroteSince_snoc, readable, RPos.holds, Bool.toNat_true, Bool.toNat_false, Nat.add_zero] using this
  case enough n out ho hr =>
    have := hd.deep (by rw [hr]; rfl)
    refine ⟨nofun, fun _ => ?_, nofun⟩
    cases out with
    | nil => exact absurd rfl ho
    | cons a r => simpa only [hr, depthAfter, RPos.callsAgain, wroteSince_snoc, readable, RPos.holds] using this

theorem dinv_deep (hg : Greedy c) {t : List Ev} {s : St Z} {k : Nat} (h : Deep c t s k) : DInv t s k := by
  induction h with
  | start z => exact dinv_start z
  | step hx hs ih => exact dinv_step hg (inv_exec hx.exec) (sinv_exec hx.exec).size ih hs

/-! ## C122 -/

/-- C122: no more calls of `requestWrite` are within each other than blocks were written since curl asked, and two. -/
theorem C122_bound (hg : Greedy c) {t : List Ev} {s : St Z} {k : Nat} (h : Deep c t s k) : k ≤ wroteSince t + 2 := by
  have hd := dinv_deep hg h
  cases hc : s.r.inCall with
  | true => have := hd.deep hc; omega
  | false => rw [hd.out hc]; omega

/-- C122: between the requests of curl none is left. -/
theorem C122_returns (hg : Greedy c) {t : List Ev} {s : St Z} {k : Nat} (h : Deep c t s k) (hr : s.r = .outside ∨ s.r = .exiting ∨ s.r = .ended) : k = 0 :=
  (dinv_deep hg h).out (by rcases hr with hr | hr | hr <;> rw [hr] <;> rfl)

/-- A block that puts out nothing -/
theorem one_deeper {t : List Ev} {s : St Z} {k n : Nat} (h : Deep c t s k) (hw : s.w = .idle) (hr : s.r = .enter n) (h1 : s.canWrite = true) (h2 : s.canRead = false)
    (h3 : s.reading = false) (h4 : s.done = false) (d : Bytes) (z : Z)
    (hp : produceZ c { s with data := d, comp := s.next } n = z ∧ produceData c { s with data := d, comp := s.next } n = [] ∧ produceOut c { s with data := d, comp := s.next } n = []) :
    ∃ t', Deep c (t ++ t') { s with z := z, data := [], comp := s.next } (k + 1) ∧ wroteSince (t ++ t') = wroteSince t + 1 ∧ compression (t ++ t') = compression t ∧
      (∀ x, Ev.wrote x ∈ t' → x = d) := by
  obtain ⟨cw, cr, rd, dn, cp, dt, cm, nx, z0, w, r⟩ := s
  simp only at hw hr h1 h2 h3 h4 hp
  subst hw hr h1 h2 h3 h4
  obtain ⟨p1, p2, p3⟩ := hp
  have a5 := ((((h.step (.callWrite _ d rfl)).step (.lockOk _ d rfl rfl)).step (.setData _ d rfl)).step (.setComp _ d rfl)).step (.post _ d rfl)
  have a8 := ((a5.step (.lockRead _ n rfl rfl rfl)).step (.mark _ n rfl)).step (step_produce rfl p1 p2 p3)
  have a11 := ((a8.step (.checkEnd _ n [] rfl rfl rfl)).step (.unlock _ n [] rfl)).step (.again _ n rfl)
  refine ⟨[.callWrite d, .tau, .tau, .tau, .wrote d, .tau, .tau, .tau, .tau, .tau, .tau], ?_, ?_, ?_, ?_⟩
  · simpa only [List.append_assoc, List.cons_append, List.nil_append, depthAfter] using a11
  · simp [wroteSince]
  · simp [compression]
  · intro x; simp

/-- The network thread waits for a block, and the writer is not in a call. -/
def Waiting (s : St Z) (n : Nat) : Prop :=
  s.w = .idle ∧ s.r = .enter n ∧ s.canWrite = true ∧ s.canRead = false ∧ s.reading = false ∧ s.done = false

/-- Any number of blocks that put out nothing -/
theorem any_deeper (next : Comp) (d : Bytes) (n : Nat) (hq : ∀ s : St Z, s.next = next → s.done = false →
      produceData c { s with data := d, comp := s.next } n = [] ∧ produceOut c { s with data := d, comp := s.next } n = [])
    {t : List Ev} {s : St Z} (h : Deep c t s 2) (hn : s.next = next) (hs : Waiting s n) (ht : wroteSince t = 0) (hw : ∀ x, Ev.wrote x ∈ t → x = d) : ∀ m,
    ∃ t' s', Deep c t' s' (m + 2) ∧ Waiting s' n ∧ s'.next = next ∧ wroteSince t' = m ∧ compression t' = compression t ∧ (∀ x, Ev.wrote x ∈ t' → x = d) := by
  intro m
  induction m with
  | zero => exact ⟨t, s, h, hs, hn, ht, rfl, hw⟩
  | succ m ih =>
    obtain ⟨t', s', g1, ⟨a1, a2, a3, a4, a5, a6⟩, g2, g3, g4, g5⟩ := ih
    obtain ⟨t2, b1, b2, b3, b4⟩ := one_deeper g1 a1 a2 a3 a4 a5 a6 d _ ⟨rfl, hq s' g2 a6⟩
    refine ⟨_, _, b1, ⟨a1, a2, a3, a4, a5, a6⟩, g2, by rw [b2, g3], by rw [b3, g4], fun x hx => ?_⟩
    rcases List.mem_append.mp hx with hx | hx
    · exact g5 x hx
    · exact b4 x hx

/-- A compressor that keeps all it takes in until it is to finish -/
def hoard : Codec Bytes where
  init _ := []
  deflate z d n f := if f then ((z ++ d).drop n, d.length, (z ++ d).take n) else (z ++ d, d.length, [])

theorem hoard_sound : Sound hoard ∧ Greedy hoard := by
  refine ⟨⟨fun z d n f => ?_, fun z d n hn hd => ?_, List.length, 1, fun z d n f => ?_⟩, fun z d n hn h => ?_⟩
  · simp only [hoard]; split <;> simp
  · left; simpa [hoard] using hd
  · simp only [hoard]; split <;> simp <;> omega
  · simp [hoard]

/-- C122 is false of the code, without compression: blocks without contents make for as many calls as there are of them, and so the bound of C122_bound is exact. (The full claim would be
that the depth is bounded whatever the number of blocks.) -/
theorem C122_false (z : Z) (m : Nat) : ∃ t s, Deep c t s (m + 2) ∧ wroteSince t = m ∧ compression t = .none := by
  have a1 := (((((Deep.start (c := c) z).step (.callWrite _ [] rfl)).step (.lockOk _ [] rfl rfl)).step (.setData _ [] rfl)).step (.setComp _ [] rfl)).step (.post _ [] rfl)
  have a2 := (((a1.step (.request _ 1 rfl (by decide))).step (.lockRead _ 1 rfl rfl rfl)).step (.mark _ 1 rfl)).step (step_produce (z := z) (d := []) (o := []) rfl rfl rfl rfl)
  have a3 := ((a2.step (.checkEnd _ 1 [] rfl rfl rfl)).step (.unlock _ 1 [] rfl)).step (.again _ 1 rfl)
  obtain ⟨t, s, h1, _, _, h2, h3, _⟩ := any_deeper .none [] 1 (fun s hn _ => ⟨by simp [produceData, hn], by simp [produceOut, hn]⟩) a3 rfl ⟨rfl, rfl, rfl, rfl, rfl, rfl⟩ rfl
    (by simp) m
  exact ⟨t, s, h1, h2, h3⟩

/-- C122 is false of the code with compression: blocks with contents, of which the compressor puts out nothing, do the same. -/
theorem C122_compressed_false (d : Bytes) (m : Nat) : ∃ t s, Deep hoard t s (m + 2) ∧ wroteSince t = m ∧ compression t = .gzip ∧ (∀ x, Ev.wrote x ∈ t → x = d) := by
  have a0 := (Deep.start (c := hoard) []).step (.setCompression _ .gzip rfl rfl)
  have a1 := ((((a0.step (.callWrite _ d rfl)).step (.lockOk _ d rfl rfl)).step (.setData _ d rfl)).step (.setComp _ d rfl)).step (.post _ d rfl)
  have a2 := (((a1.step (.request _ 1 rfl (by decide))).step (.lockRead _ 1 rfl rfl rfl)).step (.mark _ 1 rfl)).step
    (step_produce (z := d) (d := []) (o := []) rfl rfl (List.drop_length (l := d)) rfl)
  have a3 := ((a2.step (.checkEnd _ 1 [] rfl rfl rfl)).step (.unlock _ 1 [] rfl)).step (.again _ 1 rfl)
  obtain ⟨t, s, h1, _, _, h2, h3, h4⟩ := any_deeper .gzip d 1 (fun s hn hd => ⟨by simp [produceData, hn, hd, hoard], by simp [produceOut, hn, hd, hoard]⟩) a3 rfl
    ⟨rfl, rfl, rfl, rfl, rfl, rfl⟩ rfl (by simp) m
  exact ⟨t, s, h1, h2, h3, h4⟩

/-- The hypotheses are met: by `hoard`, by `marker`, and by an execution in which two calls are within each other. -/
example : Greedy hoard ∧ Greedy marker ∧ ∃ t s, Deep marker t s 2 ∧ wroteSince t = 0 := by
  refine ⟨hoard_sound.2, fun z d n hn h => ?_, ?_⟩
  · simp [marker] at h ⊢; omega
  · obtain ⟨t, s, h1, h2, _⟩ := C122_false (c := marker) false 0
    exact ⟨t, s, h1, h2⟩

end Verif.Transport
