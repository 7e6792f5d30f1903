import Verif.Deliver.Props

/-!
# C90: a file that cannot be read
-/

namespace Verif.Deliver

open Verif.Ipp Verif.Job Verif.Printer Verif.Printer.Spec

namespace Spec

/-- Nothing of a document is sent, it is no success; if the transfer was begun, what is reported is the message `msg` (or an exception). -/
structure Refused (msg : Bytes) (x : Act (Option RunError)) : Prop where
  nothing : document x.events = []
  fails : x.out ≠ .ok none
  reports : ∀ e, x.out = .ok (some (.convert e)) → e = msg
  begun : (∃ m b, Event.openStream m b ∈ x.events) → x.out = .ok (some (.convert msg)) ∨ ∀ e, x.out = .ok (some e) → ∃ ex, e = .exception ex

end Spec

open Verif.Deliver.Spec

theorem refused_bind {α : Type} {msg : Bytes} {x : Act α} {f : α → Act (Option RunError)} (h1 : document x.events = [])
    (h2 : ∀ m b, Event.openStream m b ∉ x.events) (hf : ∀ a, x.out = .ok a → Refused msg (f a)) : Refused msg (x >>= f) := by
  cases hx : x.out with
  | ok a =>
    have he : (x >>= f) = ⟨x.events ++ (f a).events, (f a).out⟩ := by
      show Act.bind x f = _
      unfold Act.bind
      rw [hx]
    obtain ⟨a1, a2, a3, a4⟩ := hf a hx
    rw [he]
    refine ⟨?_, a2, a3, ?_⟩
    · unfold document at h1 a1 ⊢
      rw [List.flatMap_append, h1, a1, List.append_nil]
    · rintro ⟨m, b, hm⟩
      rcases List.mem_append.mp hm with hm | hm
      · exact absurd hm (h2 m b)
      · exact a4 ⟨m, b, hm⟩
  | _ =>
    have he : (x >>= f).events = x.events ∧ ∀ b, (x >>= f).out ≠ .ok b := by
      show (Act.bind x f).events = _ ∧ ∀ b, (Act.bind x f).out ≠ _
      unfold Act.bind
      rw [hx]
      exact ⟨rfl, by simp⟩
    refine ⟨by rw [he.1]; exact h1, he.2 _, fun e h => absurd h (he.2 _), fun ⟨m, b, hm⟩ => ?_⟩
    rw [he.1] at hm
    exact absurd hm (h2 m b)

theorem refused_lift {α : Type} {msg : Bytes} {o : Outcome α} {f : α → Act (Option RunError)} (hf : ∀ a, o = .ok a → Refused msg (f a)) :
    Refused msg (Act.lift o >>= f) := refused_bind rfl (fun _ _ h => by cases h) hf

theorem refused_other {msg : Bytes} {e : RunError} (h : ∀ t, e ≠ .convert t) : Refused msg (pure (some e)) :=
  ⟨rfl, (fun x => nomatch x), (fun t x => by cases x; exact absurd rfl (h t)), fun ⟨_, _, hm⟩ => nomatch hm⟩

theorem refused_print {env : Env} {job : PrintJob} {f : ConvertFun} {msg : Bytes} (hc : env.convert f job = ([], .ok (some msg))) (id : Nat) (m : Msg) :
    Refused msg (doPrint env id job f m) := by
  unfold doPrint
  refine refused_lift fun bytes _ => ?_
  rw [emit_bind]
  have hconv : convertAndAwait env f job = ⟨[.finish], .ok (some (.convert msg))⟩ := by unfold convertAndAwait; rw [hc]; rfl
  unfold useCompression
  cases getStr sCompression job.printerAttrs job.opAttrs [] with
  | ok c =>
    simp only
    rw [emit_bind, hconv]
    refine ⟨?_, by simp, fun e h => by simpa using h.symm, fun _ => .inl rfl⟩
    unfold compressionEvents
    split
    · rfl
    · split <;> rfl
  | throws e => exact ⟨rfl, (fun h => nomatch h), (fun _ h => nomatch h), fun _ => .inr (fun _ h => nomatch h)⟩
  | ub => exact ⟨rfl, (fun h => nomatch h), (fun _ h => nomatch h), fun _ => .inr (fun _ h => nomatch h)⟩
  | hang => exact ⟨rfl, (fun h => nomatch h), (fun _ h => nomatch h), fun _ => .inr (fun _ h => nomatch h)⟩

theorem request_quiet (id : Nat) (m : Msg) (r : Except Bytes Bytes) : document (doRequest id m r).events = [] ∧ ∀ m' b, Event.openStream m' b ∉ (doRequest id m r).events := by
  unfold doRequest
  cases encodeMsg id m with
  | ok b =>
    rw [lift_bind_ok, emit_bind]
    exact ⟨rfl, fun m' b h => by simp [Act.lift] at h⟩
  | _ => exact ⟨rfl, fun m' b h => by cases h⟩

/-- The conversion functions for a file that cannot be read. -/
theorem convert_unread {t : Tools} {inFile : Bytes} (hr : t.read inFile = none) {input target : Bytes} (hi : input ≠ pdf) {f : ConvertFun}
    (h : getConvertFun defaultPipelines input target = some f) (j : PrintJob) : convert t inFile f j = ([], .ok (some (ascii "Failed to open input"))) := by
  have ht := same_format hi h
  subst ht
  have hcase : f = .baselinify ∨ f = .justUpload ∨ f = .fixupText := by
    unfold getConvertFun at h
    simp only [findFun, defaultPipelines, Prod.mk.injEq] at h
    rw [if_neg (fun x => hi x.1.symm), if_neg (fun x => hi x.1.symm), if_neg (fun x => hi x.1.symm), if_neg (fun x => hi x.1.symm)] at h
    split at h
    · rename_i g hg
      cases h
      split at hg
      · cases hg; exact .inl rfl
      · split at hg
        · cases hg; exact .inr (.inr rfl)
        · cases hg
    · simp at h; exact .inr (.inl h.symm)
  rcases hcase with rfl | rfl | rfl <;> simp [convert, wholeFile, hr]

/-- **C90**: of a file that is no PDF file and that cannot be read nothing is sent, and what is reported is that it could not be opened. -/
theorem C90_unread (t : Tools) (inFile : Bytes) (env : Env) (hconv : env.convert = convert t inFile) (hpl : env.pipelines = defaultPipelines) (p : Printer) (hfile : ¬ IsFile p)
    (job : PrintJob) (input fileName : Bytes) (pages : Int) (hi : input ≠ pdf) (hr : t.read inFile = none) :
    Refused (ascii "Failed to open input") (runJob env p job input fileName pages) := by
  have key : Refused (ascii "Failed to open input") (tryRun env p job.copy input fileName pages) := by
    unfold tryRun
    refine refused_lift fun ops _ => refused_lift fun r _ => ?_
    obtain ⟨e, j'⟩ := r
    cases e with
    | some e => exact refused_other (fun t h => by cases h)
    | none =>
      simp only [afterFinalize]
      cases hg : getConvertFun env.pipelines input j'.targetFormat with
      | none => exact refused_other (fun t h => by cases h)
      | some f =>
        simp only
        rw [hpl] at hg
        have hc : ∀ j, env.convert f j = ([], .ok (some (ascii "Failed to open input"))) := fun j => by rw [hconv]; exact convert_unread hr hi hg j
        unfold deliver
        rw [if_neg (fun h => hfile ((startsWith_file p).mp h))]
        unfold transmit
        split
        · unfold createAndSend
          refine refused_lift fun m _ => refused_bind (request_quiet _ _ _).1 (request_quiet _ _ _).2 fun r _ => ?_
          cases r with
          | error t => exact refused_other (fun t h => by cases h)
          | ok resp =>
            simp only [createResult, afterCreate]
            split
            · refine refused_lift fun id _ => ?_
              unfold sendDocument
              exact refused_lift fun m _ => refused_print (hc _) _ _
            · exact refused_lift fun s _ => refused_other (fun t h => by cases h)
        · unfold printJob
          exact refused_lift fun m _ => refused_print (hc _) _ _
  obtain ⟨k1, k2, k3, k4⟩ := key
  unfold runJob runJobWith
  refine ⟨by rw [catchAll_events]; exact k1, ?_, ?_, ?_⟩
  · unfold catchAll
    split
    · simp
    · exact k2
  · unfold catchAll
    split
    · intro e h; simp at h
    · exact k3
  · rw [catchAll_events]
    intro hm
    have := k4 hm
    unfold catchAll
    split
    · right; intro e h; simp at h; exact ⟨_, h.symm⟩
    · exact this

/-- a JPEG file that is not there: the transfer is begun and ended without a document -/
example : (exTools.read (ascii "/tmp/b.jpg") = none) ∧
    (runJob (exEnv (ascii "/tmp/b.jpg")) (exPrinter [jpeg]) (exJob [jpeg]) jpeg (ascii "b.jpg") 1).out = .ok (some (.convert (ascii "Failed to open input"))) := by decide +kernel

end Verif.Deliver
