import Verif.Transport.Inv

/-! # What is sent, compared to what is written -/

namespace Verif.Transport

open Spec

variable {Z : Type} {c : Codec Z}

/-- The buffer's contents on the way back to curl. -/
def RPos.inflight : RPos → Bytes
  | .check _ out | .unlock _ out | .again _ out | .ret out => out
  | _ => []

/-- What has been written and not yet read. -/
def pend (s : St Z) : Bytes := if s.w.block = none then s.data else []

/-- The size of the buffer. -/
def RPos.size : RPos → Option Nat
  | .enter n | .mark n | .produce n | .check n _ | .unlock n _ | .again n _ => some n
  | _ => none

/-- The network thread is about to tell curl that there is no more data. -/
def RPos.atEnd (done : Bool) : RPos → Bool
  | .ret [] => true
  | .check _ [] => done
  | _ => false

/-- While the network thread is alive, everything is accounted for. -/
def Exact (c : Codec Z) (t : List Ev) (s : St Z) : Prop :=
  (s.comp = .none ∧ document t = [] ∧ sent t ++ s.r.inflight ++ pend s = header t) ∨
  (s.comp ≠ .none ∧ ∃ zi zo f, Run c s.comp s.z zi zo f ∧ (f = true → s.done = true) ∧
    sent t ++ s.r.inflight = header t ++ zo ∧ zi ++ pend s = document t)

/-- Nothing but a part of what is written, in order, is sent. -/
def Good (c : Codec Z) (t : List Ev) (out : Bytes) : Prop :=
  out <+: header t ∨
  (compression t ≠ .none ∧ ∃ z zi zo f, Run c (compression t) z zi zo f ∧ out = header t ++ zo ∧ zi <+: document t)

structure SInv (c : Codec Z) (t : List Ev) (s : St Z) : Prop where
  next : s.next = compression t
  comp : s.comp ≠ .none → s.comp = s.next
  init : s.comp = .none → s.next ≠ .none → s.z = c.init s.next
  post : ∀ d, s.w = .post d → s.comp = s.next
  size : ∀ n, s.r.size = some n → 0 < n
  exact : s.r.live = true → Exact c t s
  good : s.r.live = false → Good c t (sent t)
  atEnd : s.r.atEnd s.done = true → s.done = true ∧
    (s.comp ≠ .none → ∃ zo, Finished c s.comp (document t) zo ∧ sent t = header t ++ zo)

/-! How the specification's functions see one more event. -/

theorem written_snoc (t : List Ev) (e : Ev) :
    written (t ++ [e]) = written t ++ (match e with | .wrote d => d | _ => []) := by
  simp only [written, List.flatMap_append, List.flatMap_cons, List.flatMap_nil, List.append_nil]
  cases e <;> rfl

theorem sent_snoc (t : List Ev) (e : Ev) : sent (t ++ [e]) = sent t ++ (match e with | .gave out => out | _ => []) := by
  simp only [sent, List.flatMap_append, List.flatMap_cons, List.flatMap_nil, List.append_nil]
  cases e <;> rfl

theorem compression_snoc (t : List Ev) (e : Ev) :
    compression (t ++ [e]) = (match e with | .setComp k => k | _ => compression t) := by
  simp only [compression, List.foldl_append, List.foldl_cons, List.foldl_nil]
  cases e <;> rfl

theorem parts_snoc (t : List Ev) (e : Ev) : parts (t ++ [e]) = (match e with
    | .setComp k => (k, (parts t).2)
    | .wrote d => if (parts t).1 = .none then ((parts t).1, (parts t).2.1 ++ d, (parts t).2.2)
      else ((parts t).1, (parts t).2.1, (parts t).2.2 ++ d)
    | _ => parts t) := by
  simp only [parts, List.foldl_append, List.foldl_cons, List.foldl_nil]
  cases e <;> rfl

theorem parts_compression_aux (t : List Ev) : ∀ t', t'.reverse = t → (parts t').1 = compression t' := by
  induction t with
  | nil => intro t' h; rw [List.reverse_eq_nil_iff] at h; subst h; rfl
  | cons e t ih =>
    intro t' h
    have h' : t' = t.reverse ++ [e] := by rw [← List.reverse_reverse t', h]; simp
    subst h'
    have := ih t.reverse (by simp)
    rw [parts_snoc, compression_snoc]
    cases e <;> simp [this]
    split <;> simp_all

theorem parts_compression (t : List Ev) : (parts t).1 = compression t := parts_compression_aux t.reverse t rfl

theorem header_snoc (t : List Ev) (e : Ev) : header (t ++ [e]) =
    (match e with | .wrote d => if compression t = .none then header t ++ d else header t | _ => header t) := by
  unfold header
  rw [parts_snoc, ← parts_compression]
  cases e <;> simp
  split <;> simp

theorem document_snoc (t : List Ev) (e : Ev) : document (t ++ [e]) =
    (match e with | .wrote d => if compression t = .none then document t else document t ++ d | _ => document t) := by
  unfold document
  rw [parts_snoc, ← parts_compression]
  cases e <;> simp
  split <;> simp

/-- An event that neither writes nor sends nor sets the compression. -/
def Ev.quiet : Ev → Bool
  | .wrote _ | .gave _ | .setComp _ => false
  | _ => true

theorem quiet_snoc (t : List Ev) {e : Ev} (h : e.quiet = true) : sent (t ++ [e]) = sent t ∧ header (t ++ [e]) = header t ∧
    document (t ++ [e]) = document t ∧ compression (t ++ [e]) = compression t := by
  rw [sent_snoc, header_snoc, document_snoc, compression_snoc]
  cases e <;> simp_all [Ev.quiet]

theorem exact_quiet {t : List Ev} {e : Ev} {s : St Z} (h : e.quiet = true) : Exact c (t ++ [e]) s ↔ Exact c t s := by
  obtain ⟨h1, h2, h3, h4⟩ := quiet_snoc t h
  unfold Exact; rw [h1, h2, h3]

theorem good_quiet {t : List Ev} {e : Ev} {out : Bytes} (h : e.quiet = true) : Good c (t ++ [e]) out ↔ Good c t out := by
  obtain ⟨h1, h2, h3, h4⟩ := quiet_snoc t h
  unfold Good; rw [h2, h3, h4]

theorem good_wrote {t : List Ev} {d out : Bytes} (h : Good c t out) : Good c (t ++ [.wrote d]) out := by
  unfold Good at *
  rw [header_snoc, document_snoc, compression_snoc]
  rcases h with h | ⟨hk, z, zi, zo, f, h1, h2, h3⟩
  · left; simp only; split
    · exact h.trans (List.prefix_append _ _)
    · exact h
  · right
    simp only [if_neg hk]
    exact ⟨hk, z, zi, zo, f, h1, h2, h3.trans (List.prefix_append _ _)⟩

theorem good_of_exact {t : List Ev} {s : St Z} (hk : s.comp ≠ .none → s.comp = compression t) (h : Exact c t s) :
    Good c t (sent t ++ s.r.inflight) := by
  rcases h with ⟨h1, h2, h3⟩ | ⟨h1, zi, zo, f, h2, h3, h4, h5⟩
  · left; rw [← h3]; exact List.prefix_append _ _
  · right
    have := hk h1
    refine ⟨this ▸ h1, s.z, zi, zo, f, this ▸ h2, h4, ?_⟩
    rw [← h5]; exact List.prefix_append _ _

theorem sinv_start (z : Z) : SInv c [] (start z) := by
  constructor <;> simp [start, compression, RPos.size, RPos.live, RPos.atEnd, Exact, document, parts, sent, header,
    RPos.inflight, pend, WPos.block]


/-- A step that changes neither the trace nor the network thread's side. -/
theorem sinv_writer {t : List Ev} {e : Ev} {s s' : St Z} (hs : SInv c t s) (he : e.quiet = true)
    (h1 : s'.next = s.next) (h2 : s'.comp = s.comp) (h3 : s'.z = s.z) (h4 : s'.r = s.r)
    (h5 : ∀ d, s'.w = .post d → s'.comp = s'.next) (h6 : s.r.live = true → pend s' = pend s) (h7 : s.done = true → s'.done = true)
    (h8 : s.r.live = true → s.r.atEnd s'.done = true → s.r.atEnd s.done = true) : SInv c (t ++ [e]) s' := by
  obtain ⟨q1, q2, q3, q4⟩ := quiet_snoc t he
  refine ⟨by rw [h1, q4]; exact hs.next, by rw [h1, h2]; exact hs.comp, by rw [h1, h2, h3]; exact hs.init, h5,
    by rw [h4]; exact hs.size, fun hl => ?_, fun hl => ?_, fun hl => ?_⟩
  · rw [h4] at hl
    rw [exact_quiet he]
    rcases hs.exact hl with h | ⟨k1, zi, zo, f, k2, k3, k4, k5⟩
    · left; rw [h2, h4, h6 hl]; exact h
    · right; rw [h2, h3, h4, h6 hl]; exact ⟨k1, zi, zo, f, k2, fun h => h7 (k3 h), k4, k5⟩
  · rw [h4] at hl
    rw [good_quiet he, q1]; exact hs.good hl
  · rw [h4] at hl
    have hlive : s.r.live = true := by
      cases hr : s.r with
      | exiting | ended => rw [hr] at hl; simp [RPos.atEnd] at hl
      | _ => rfl
    have := hs.atEnd (h8 hlive hl)
    rw [h2, q1, q2, q3]
    exact ⟨h7 this.1, this.2⟩

/-- A step of the network thread that changes only its position. -/
theorem sinv_reader {t : List Ev} {e : Ev} {s s' : St Z} (hs : SInv c t s) (he : e.quiet = true) (hl : s.r.live = true)
    (h1 : s'.next = s.next) (h2 : s'.comp = s.comp) (h3 : s'.z = s.z) (h4 : s'.w = s.w) (h5 : s'.data = s.data) (h6 : s'.done = s.done)
    (h7 : ∀ n, s'.r.size = some n → 0 < n) (h8 : s'.r.inflight = s.r.inflight)
    (h9 : s'.r.atEnd s.done = true → s.r.atEnd s.done = true) : SInv c (t ++ [e]) s' := by
  obtain ⟨q1, q2, q3, q4⟩ := quiet_snoc t he
  have hex : Exact c t s' := by
    have hp : pend s' = pend s := by unfold pend; rw [h4, h5]
    rcases hs.exact hl with h | ⟨k1, zi, zo, f, k2, k3, k4, k5⟩
    · left; rw [h2, h8, hp]; exact h
    · right; rw [h2, h3, h6, h8, hp]; exact ⟨k1, zi, zo, f, k2, k3, k4, k5⟩
  refine ⟨by rw [h1, q4]; exact hs.next, by rw [h1, h2]; exact hs.comp, by rw [h1, h2, h3]; exact hs.init,
    by rw [h1, h2, h4]; exact hs.post, h7, fun _ => ?_, fun hd => ?_, fun ha => ?_⟩
  · rw [exact_quiet he]; exact hex
  · rw [good_quiet he, q1]
    have := good_of_exact (by rw [← hs.next, h2]; exact hs.comp) hex
    have hi : s'.r.inflight = [] := by
      cases hr : s'.r with
      | exiting | ended => rfl
      | _ => rw [hr] at hd; simp [RPos.live] at hd
    rw [hi, List.append_nil] at this
    exact this
  · rw [h6] at ha
    have := hs.atEnd (h9 ha)
    rw [h2, h6, q1, q2, q3]
    exact this

theorem atEnd_check {n : Nat} {out : Bytes} {b : Bool} (h : (RPos.check n out).atEnd b = true) : out = [] ∧ b = true := by
  cases out with
  | nil => exact ⟨rfl, h⟩
  | cons a r => simp [RPos.atEnd] at h

theorem atEnd_ret {out : Bytes} {b : Bool} (h : (RPos.ret out).atEnd b = true) : out = [] := by
  cases out with
  | nil => rfl
  | cons a r => simp [RPos.atEnd] at h

theorem sinv_step {t : List Ev} {e : Ev} {s s' : St Z} (hi : Inv s) (hs : SInv c t s) (h : Step c e s s') :
    SInv c (t ++ [e]) s' := by
  cases h
  case callWrite d hw => exact sinv_writer hs rfl rfl rfl rfl rfl nofun (by simp [pend, hw, WPos.block]) id (fun _ h => h)
  case callAwait hw => exact sinv_writer hs rfl rfl rfl rfl rfl nofun (by simp [pend, hw, WPos.block]) id (fun _ h => h)
  case lockOk d hw _ => exact sinv_writer hs rfl rfl rfl rfl rfl nofun (by simp [pend, hw, WPos.block]) id (fun _ h => h)
  case lockFail d hw _ => exact sinv_writer hs rfl rfl rfl rfl rfl nofun (by simp [pend, hw, WPos.block]) id (fun _ h => h)
  case chkDead d hw _ => exact sinv_writer hs rfl rfl rfl rfl rfl nofun (by simp [pend, hw, WPos.block]) id (fun _ h => h)
  case chkAlive d hw _ => exact sinv_writer hs rfl rfl rfl rfl rfl nofun (by simp [pend, hw, WPos.block]) id (fun _ h => h)
  case runDead hw _ => exact sinv_writer hs rfl rfl rfl rfl rfl nofun (by simp [pend, hw, WPos.block]) id (fun _ h => h)
  case runAlive hw _ => exact sinv_writer hs rfl rfl rfl rfl rfl nofun (by simp [pend, hw, WPos.block]) id (fun _ h => h)
  case tryOk hw _ => exact sinv_writer hs rfl rfl rfl rfl rfl nofun (by simp [pend, hw, WPos.block]) id (fun _ h => h)
  case tryFail hw _ => exact sinv_writer hs rfl rfl rfl rfl rfl nofun (by simp [pend, hw, WPos.block]) id (fun _ h => h)
  case againDead hw _ => exact sinv_writer hs rfl rfl rfl rfl rfl nofun (by simp [pend, hw, WPos.block]) id (fun _ h => h)
  case againAlive hw _ => exact sinv_writer hs rfl rfl rfl rfl rfl nofun (by simp [pend, hw, WPos.block]) id (fun _ h => h)
  case aPost hw => exact sinv_writer hs rfl rfl rfl rfl rfl nofun (by simp [pend, hw, WPos.block]) id (fun _ h => h)
  case aJoin hw _ => exact sinv_writer hs rfl rfl rfl rfl rfl nofun (by simp [pend, hw, WPos.block]) id (fun _ h => h)
  case setData d hw =>
    refine sinv_writer hs rfl rfl rfl rfl rfl nofun (fun hl => ?_) id (fun _ h => h)
    have := hi.noData hl (Or.inr (Or.inl (by rw [hw]; rfl)))
    simp [pend, hw, WPos.block, this]
  case aData hw =>
    refine sinv_writer hs rfl rfl rfl rfl rfl nofun (fun hl => ?_) id (fun _ h => h)
    have := hi.noData hl (Or.inr (Or.inl (by rw [hw]; rfl)))
    simp [pend, hw, WPos.block, this]
  case aDone hw =>
    refine sinv_writer hs rfl rfl rfl rfl rfl nofun (by simp [pend, hw, WPos.block]) (fun _ => rfl) (fun hl h => ?_)
    cases hr : s.r with
    | check n out =>
      have h1 := hi.token hl
      have h2 := hi.reading true (by rw [hr]; rfl)
      rw [hw, hr, h2] at h1
      simp [WPos.holds, RPos.holds] at h1
    | ret out => rw [hr] at h; exact atEnd_ret h ▸ rfl
    | _ => rw [hr] at h; simp [RPos.atEnd] at h
  case setCompression k hw hn =>
    have hcn : s.comp = .none := by
      cases hc : s.comp with
      | none => rfl
      | _ => have := hs.comp (by rw [hc]; nofun); rw [hn] at this; rw [hc] at this; cases this
    have e1 : sent (t ++ [.setComp k]) = sent t := by rw [sent_snoc]; simp
    have e2 : header (t ++ [.setComp k]) = header t := by rw [header_snoc]
    have e3 : document (t ++ [.setComp k]) = document t := by rw [document_snoc]
    have e4 : compression (t ++ [.setComp k]) = k := by rw [compression_snoc]
    refine ⟨e4.symm, fun h => absurd hcn h, fun _ _ => rfl, fun d hd => ?_, hs.size, fun hl => ?_, fun hl => ?_, fun ha => ?_⟩
    · have : s.w = .post d := hd
      rw [hw] at this; cases this
    · rcases hs.exact hl with ⟨h1, h2, h3⟩ | h
      · left; rw [e1, e2, e3]; exact ⟨h1, h2, h3⟩
      · exact absurd hcn h.1
    · have hl' : s.r.live = false := hl
      rcases hs.good hl' with h | h
      · left; rw [e1, e2]; exact h
      · rw [← hs.next, hn] at h; exact absurd rfl h.1
    · have := hs.atEnd ha
      exact ⟨this.1, fun h => absurd hcn h⟩
  case setComp d hw =>
    obtain ⟨q1, q2, q3, q4⟩ := quiet_snoc t (e := .tau) rfl
    refine ⟨by rw [q4]; exact hs.next, fun _ => rfl, fun h1 h2 => absurd h1 h2, fun _ _ => rfl, hs.size,
      fun hl => ?_, fun hl => ?_, fun ha => ?_⟩
    · rw [exact_quiet rfl]
      have hp : pend s = [] := by simp [pend, hw, WPos.block]
      have hp' : pend { s with comp := s.next, w := .post d } = [] := by simp [pend, WPos.block]
      unfold Exact
      rw [hp']
      rcases hs.exact hl with ⟨h1, h2, h3⟩ | ⟨h1, h2⟩
      · rw [hp] at h3
        by_cases hn : s.next = .none
        · exact Or.inl ⟨hn, h2, h3⟩
        · refine Or.inr ⟨hn, [], [], false, ?_, nofun, by simpa using h3, by simp [h2]⟩
          show Run c s.next s.z [] [] false
          rw [hs.init h1 hn]
          exact .start
      · rw [hp] at h2
        have := hs.comp h1
        refine Or.inr ⟨this ▸ h1, ?_⟩
        simp only
        rw [← this]; exact h2
    · rw [good_quiet rfl, q1]; exact hs.good hl
    · have h := hs.atEnd ha
      refine ⟨h.1, fun hk => ?_⟩
      rw [q1, q2, q3]
      -- the network thread is alive and done, so that the writer is in `await`
      exfalso
      have hl : s.r.live = true := by
        cases hr : s.r with
        | exiting | ended => have ha' : s.r.atEnd s.done = true := ha; rw [hr] at ha'; simp [RPos.atEnd] at ha'
        | _ => rfl
      have := hi.done hl
      rw [hw, h.1] at this
      cases this
  case post d hw =>
    have hcn := hs.post d hw
    have e1 : sent (t ++ [.wrote d]) = sent t := by rw [sent_snoc]; simp
    have e4 : compression (t ++ [.wrote d]) = compression t := by rw [compression_snoc]
    refine ⟨by rw [e4]; exact hs.next, hs.comp, hs.init, nofun, hs.size, fun hl => ?_, fun hl => ?_, fun ha => ?_⟩
    · have hp : pend s = [] := by simp [pend, hw, WPos.block]
      have hd : s.data = d := hi.block hl d (by rw [hw]; rfl)
      have hp' : pend { s with canRead := true, w := .idle } = d := by simp [pend, WPos.block, hd]
      unfold Exact
      rw [hp', e1, header_snoc, document_snoc]
      simp only
      rcases hs.exact hl with ⟨h1, h2, h3⟩ | ⟨h1, zi, zo, f, k1, k2, k3, k4⟩
      · have hk : compression t = .none := by rw [← hs.next, ← hcn, h1]
        rw [hp, List.append_nil] at h3
        rw [if_pos hk, if_pos hk]
        exact Or.inl ⟨h1, h2, by rw [h3]⟩
      · have hk : compression t ≠ .none := by rw [← hs.next, ← hcn]; exact h1
        rw [hp, List.append_nil] at k4
        rw [if_neg hk, if_neg hk]
        exact Or.inr ⟨h1, zi, zo, f, k1, k2, k3, by rw [k4]⟩
    · rw [e1]; exact good_wrote (hs.good hl)
    · have h := hs.atEnd ha
      refine ⟨h.1, fun hk => ?_⟩
      exfalso
      have hl : s.r.live = true := by
        cases hr : s.r with
        | exiting | ended => have ha' : s.r.atEnd s.done = true := ha; rw [hr] at ha'; simp [RPos.atEnd] at ha'
        | _ => rfl
      have := hi.done hl
      rw [hw, h.1] at this
      cases this
  case request n hn hr =>
    exact sinv_reader hs rfl (by rw [hr]; rfl) rfl rfl rfl rfl rfl rfl (by simp [RPos.size, hn]) (by simp [hr, RPos.inflight])
      (by simp [RPos.atEnd])
  case lockRead n hr _ _ =>
    exact sinv_reader hs rfl (by rw [hr]; rfl) rfl rfl rfl rfl rfl rfl
      (by have := hs.size n (by rw [hr]; rfl); simp [RPos.size, this]) (by simp [hr, RPos.inflight]) (by simp [RPos.atEnd])
  case noLock n hr _ =>
    exact sinv_reader hs rfl (by rw [hr]; rfl) rfl rfl rfl rfl rfl rfl
      (by have := hs.size n (by rw [hr]; rfl); simp [RPos.size, this]) (by simp [hr, RPos.inflight]) (by simp [RPos.atEnd])
  case mark n hr =>
    exact sinv_reader hs rfl (by rw [hr]; rfl) rfl rfl rfl rfl rfl rfl
      (by have := hs.size n (by rw [hr]; rfl); simp [RPos.size, this]) (by simp [hr, RPos.inflight]) (by simp [RPos.atEnd])
  case checkDone n out hr hd =>
    refine sinv_reader hs rfl (by rw [hr]; rfl) rfl rfl rfl rfl rfl rfl (by simp [RPos.size]) (by simp [hr, RPos.inflight]) (fun h => ?_)
    rw [atEnd_ret h] at hr
    rw [hr]; exact hd
  case checkEnd n out hr _ _ =>
    exact sinv_reader hs rfl (by rw [hr]; rfl) rfl rfl rfl rfl rfl rfl
      (by have := hs.size n (by rw [hr]; rfl); simp [RPos.size, this]) (by simp [hr, RPos.inflight]) (by simp [RPos.atEnd])
  case checkMore n out hr _ _ =>
    exact sinv_reader hs rfl (by rw [hr]; rfl) rfl rfl rfl rfl rfl rfl
      (by have := hs.size n (by rw [hr]; rfl); simp [RPos.size, this]) (by simp [hr, RPos.inflight]) (by simp [RPos.atEnd])
  case unlock n out hr =>
    exact sinv_reader hs rfl (by rw [hr]; rfl) rfl rfl rfl rfl rfl rfl
      (by have := hs.size n (by rw [hr]; rfl); simp [RPos.size, this]) (by simp [hr, RPos.inflight]) (by simp [RPos.atEnd])
  case again n hr =>
    exact sinv_reader hs rfl (by rw [hr]; rfl) rfl rfl rfl rfl rfl rfl
      (by have := hs.size n (by rw [hr]; rfl); simp [RPos.size, this]) (by simp [hr, RPos.inflight]) (by simp [RPos.atEnd])
  case enough n out hne hr =>
    exact sinv_reader hs rfl (by rw [hr]; rfl) rfl rfl rfl rfl rfl rfl (by simp [RPos.size]) (by simp [hr, RPos.inflight])
      (fun h => absurd (atEnd_ret h) hne)
  case exit hr =>
    exact sinv_reader hs rfl (by rw [hr]; rfl) rfl rfl rfl rfl rfl rfl (by simp [RPos.size]) (by simp [hr, RPos.inflight])
      (by simp [RPos.atEnd])
  case complete hr =>
    obtain ⟨q1, q2, q3, q4⟩ := quiet_snoc t (e := .ended) rfl
    refine ⟨by rw [q4]; exact hs.next, hs.comp, hs.init, hs.post, by simp [RPos.size], nofun, fun _ => ?_, by simp [RPos.atEnd]⟩
    rw [good_quiet rfl, q1]; exact hs.good (by rw [hr]; rfl)
  case ret out hr =>
    have hl : s.r.live = true := by rw [hr]; rfl
    have e1 : sent (t ++ [.gave out]) = sent t ++ out := by rw [sent_snoc]
    have e2 : header (t ++ [.gave out]) = header t := by rw [header_snoc]
    have e3 : document (t ++ [.gave out]) = document t := by rw [document_snoc]
    have e4 : compression (t ++ [.gave out]) = compression t := by rw [compression_snoc]
    refine ⟨by rw [e4]; exact hs.next, hs.comp, hs.init, hs.post, by simp [RPos.size], fun _ => ?_, nofun, by simp [RPos.atEnd]⟩
    have := hs.exact hl
    unfold Exact at *
    rw [hr] at this
    rw [e1, e2, e3]
    simp only [RPos.inflight, List.append_nil] at this ⊢
    exact this
  case produce n hr =>
    have hl : s.r.live = true := by rw [hr]; rfl
    obtain ⟨q1, q2, q3, q4⟩ := quiet_snoc t (e := .tau) rfl
    have hin : s.r.inflight = [] := by rw [hr]; rfl
    -- the writer does not hold the buffer
    have hblock : s.w.block = none := by
      have h1 := hi.token hl
      have h2 := hi.reading true (by rw [hr]; rfl)
      rw [hr, h2] at h1
      cases hw : s.w <;> rw [hw] at h1 <;> simp [WPos.holds, RPos.holds] at h1 <;> first | rfl | omega
    have hp : pend s = s.data := by simp [pend, hblock]
    have hex := hs.exact hl
    refine ⟨by rw [q4]; exact hs.next, hs.comp, ?_, hs.post, ?_, fun _ => ?_, nofun, fun ha => ?_⟩
    · intro h1 h2
      have h1' : s.comp = .none := h1
      show produceZ c s n = _
      unfold produceZ
      rw [if_neg (by simp [h1'])]
      exact hs.init h1 h2
    · have := hs.size n (by rw [hr]; rfl)
      simp [RPos.size, this]
    · rw [exact_quiet rfl]
      have hp' : pend { s with z := produceZ c s n, data := produceData c s n, r := .check n (produceOut c s n) } =
          produceData c s n := by simp [pend, hblock]
      unfold Exact
      rw [hp']
      rcases hex with ⟨h1, h2, h3⟩ | ⟨h1, zi, zo, f, k1, k2, k3, k4⟩
      · left
        refine ⟨h1, h2, ?_⟩
        simp only [RPos.inflight, produceOut, produceData]
        rw [if_neg (by simp [h1]), if_neg (by simp [h1]), List.append_assoc, List.take_append_drop]
        rw [hin, hp, List.append_nil] at h3
        exact h3
      · right
        rw [hin, List.append_nil] at k3
        rw [hp] at k4
        refine ⟨h1, zi ++ s.data.take (c.deflate s.z s.data n s.done).2.1, zo ++ produceOut c s n, f || s.done, ?_, ?_, ?_, ?_⟩
        · simp only [produceZ, produceOut]
          rw [if_pos h1, if_pos h1]
          cases hd : s.done with
          | true => rw [Bool.or_true]; exact .finish k1
          | false =>
            have : f = false := by cases f with | false => rfl | true => rw [hd] at k2; exact absurd (k2 rfl) (by simp)
            subst this
            exact .feed k1
        · intro h
          rw [Bool.or_eq_true] at h
          exact h.elim k2 id
        · simp only [RPos.inflight]; rw [k3, List.append_assoc]
        · simp only [produceData]; rw [if_pos h1, List.append_assoc, List.take_append_drop]; exact k4
    · obtain ⟨ho, hd⟩ := atEnd_check ha
      refine ⟨hd, fun hk => ?_⟩
      have hk' : s.comp ≠ .none := hk
      have hd' : s.done = true := hd
      have hdata : s.data = [] := by
        have h1 := hi.done hl
        rw [hd'] at h1
        apply hi.noData hl (Or.inr (Or.inl _))
        cases hw : s.w <;> rw [hw] at h1 <;> simp [WPos.afterDone] at h1 <;> rfl
      rcases hex with ⟨h1, _⟩ | ⟨h1, zi, zo, f, k1, k2, k3, k4⟩
      · exact absurd h1 hk'
      · rw [hin, List.append_nil] at k3
        rw [hp, hdata, List.append_nil] at k4
        rw [q1, q2, q3]
        refine ⟨zo, ⟨s.z, f, n, k4 ▸ k1, hs.size n (by rw [hr]; rfl), ?_⟩, k3⟩
        unfold produceOut at ho
        rw [if_pos hk', hdata, hd'] at ho
        exact ho

theorem sinv_exec {t : List Ev} {s : St Z} (h : Exec c t s) : SInv c t s := by
  induction h with
  | start z => exact sinv_start z
  | step h1 h2 ih => exact sinv_step (inv_exec h1) ih h2

end Verif.Transport
