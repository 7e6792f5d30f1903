import Verif.Transport.Spec

/-! # Invariants of the streaming upload -/

namespace Verif.Transport

variable {Z : Type} {c : Codec Z}

/-- The network thread is still in `curl_easy_perform`. -/
def RPos.live : RPos → Bool
  | .exiting | .ended => false
  | _ => true

/-- The writer has taken `_canWrite` and has not yet released `_canRead`. -/
def WPos.holds : WPos → Bool
  | .setData _ | .setComp _ | .post _ | .aDone | .aData | .aPost => true
  | _ => false

/-- The network thread has taken `_canRead` and has not yet released `_canWrite`. -/
def RPos.holds (reading : Bool) : RPos → Bool
  | .mark _ | .unlock _ _ => true
  | _ => reading

/-- `await` has set `_done`. -/
def WPos.afterDone : WPos → Bool
  | .aData | .aPost | .aJoin => true
  | _ => false

/-- The writer is where `_data` must have been used up. -/
def WPos.noData : WPos → Bool
  | .setData _ | .aDone | .aData | .aPost | .aJoin => true
  | _ => false

/-- The block that is being written, when it is in `_data` already. -/
def WPos.block : WPos → Option Bytes
  | .setComp d | .post d => some d
  | _ => none

/-- The value of `_reading`, where it is known from the position. -/
def RPos.readingIs : RPos → Option Bool
  | .produce _ | .check _ _ => some true
  | .mark _ | .unlock _ _ => some false
  | _ => none

structure Inv (s : St Z) : Prop where
  complete : s.complete = true ↔ s.r = .ended
  token : s.r.live = true →
    s.canWrite.toNat + s.canRead.toNat + s.w.holds.toNat + (s.r.holds s.reading).toNat = 1
  reading : ∀ b, s.r.readingIs = some b → s.reading = b
  done : s.r.live = true → s.done = s.w.afterDone
  noData : s.r.live = true → s.canWrite = true ∨ s.w.noData = true ∨ (∃ n out, s.r = .unlock n out) → s.data = []
  block : s.r.live = true → ∀ d, s.w.block = some d → s.data = d
  closed : s.r.live = true → s.w.afterDone = true → s.canWrite = false ∧ (∀ n out, s.r ≠ .unlock n out)

theorem inv_start (z : Z) : Inv (start z) := by
  constructor <;> simp [start, WPos.holds, RPos.holds, RPos.readingIs, WPos.afterDone, WPos.noData, WPos.block]

theorem inv_step {e : Ev} {s s' : St Z} (hi : Inv s) (h : Step c e s s') : Inv s' := by
  obtain ⟨h1, h2, h3, h4, h5, h6, h7⟩ := hi
  obtain ⟨cw, cr, rd, dn, cp, dt, cm, nx, z, w, r⟩ := s
  cases h
  case callWrite | callAwait | lockOk | lockFail | chkDead | chkAlive | setData | setComp | post | runDead | runAlive | tryOk | tryFail |
      againDead | againAlive | aDone | aData | aPost | setCompression =>
    simp only at * <;> subst_vars
    refine ⟨h1, fun hl => ?_, h3, fun hl => ?_, fun hl => ?_, fun hl => ?_, fun hl => ?_⟩
    all_goals
      dsimp only at hl ⊢
      have t2 := h2 hl; have t4 := h4 hl; have t5 := h5 hl; have t6 := h6 hl; have t7 := h7 hl
      clear h2 h4 h5 h6 h7
      simp only [WPos.holds, WPos.afterDone, WPos.noData, WPos.block] at t2 t4 t5 t6 t7 ⊢ <;>
      first
        | omega
        | (simp_all; done)
        | (simp at * <;> omega)
        | (cases r <;> cases cw <;> simp_all [RPos.live, RPos.holds] <;> omega)
  case aJoin hw hr =>
    simp only at hw hr; subst hw; subst hr
    exact ⟨h1, nofun, h3, nofun, nofun, nofun, nofun⟩
  case exit hr =>
    simp only at hr; subst hr
    exact ⟨by simpa using h1, nofun, nofun, nofun, nofun, nofun, nofun⟩
  case complete hr =>
    simp only at hr; subst hr
    exact ⟨by simp, nofun, nofun, nofun, nofun, nofun, nofun⟩
  all_goals
    simp only at * <;> subst_vars
    have t2 := h2 rfl; have t4 := h4 rfl; have t5 := h5 rfl; have t6 := h6 rfl; have t7 := h7 rfl
    clear h2 h4 h5 h6 h7
    simp only [RPos.holds, RPos.readingIs] at t2 t5 h3
    refine ⟨?_, fun _ => ?_, ?_, fun _ => ?_, fun _ => ?_, fun _ => ?_, fun _ => ?_⟩
    all_goals
      try simp only [RPos.holds, RPos.readingIs]
      first
        | omega
        | (simp_all; done)
        | (simp at * <;> omega)
        | (cases w <;> cases cw <;> simp_all [WPos.holds, WPos.noData, WPos.block, produceData] <;> omega)

theorem inv_exec {t : List Ev} {s : St Z} (h : Exec c t s) : Inv s := by
  induction h with
  | start z => exact inv_start z
  | step _ h ih => exact inv_step ih h

end Verif.Transport
