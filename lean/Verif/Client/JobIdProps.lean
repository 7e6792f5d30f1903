import Verif.Client.SentProps

/-! # The number of the job that `print --print-job-id` shows (C84) -/

namespace Verif.Client

open Ipp Job Printer Printer.Spec

namespace Spec

/-- The number that an event shows. -/
def idOf : Event → Option Int
  | .submitted id => some id
  | _ => none

/-- The job numbers that are shown. -/
def shownIds (es : List Event) : List Int := es.filterMap idOf

/-- The reply to the request with the document, as far as it tells of the number of the job: without attributes of a job there is none. -/
def Told (reply : Except Bytes Bytes) (ids : List Int) : Prop :=
  ∃ data m rest, reply = .ok data ∧ decodeMsg data = .ok (m, rest) ∧
    ((m.jobAttrs = [] ∧ ids = []) ∨ ∃ a as tag id, m.jobAttrs = a :: as ∧ KMap.get? a (ascii "job-id") = some (tag, .int id) ∧ ids = [id])

/-- `l` is what a reply tells of the number of the job, or 0 when it has attributes of a job but not this one. -/
def ToldOr0 (reply : Except Bytes Bytes) (ids : List Int) : Prop :=
  Told reply ids ∨ ∃ data m rest a as, reply = .ok data ∧ decodeMsg data = .ok (m, rest) ∧ m.jobAttrs = a :: as ∧
    KMap.get? a (ascii "job-id") = none ∧ ids = [0]

/-- The reply accepts the document and tells of the number of the job by a value that is no number. -/
def OddNumber (reply : Except Bytes Bytes) : Prop :=
  ∃ data m rest a as x, reply = .ok data ∧ decodeMsg data = .ok (m, rest) ∧ m.opOrStatus < 0xff ∧ m.jobAttrs = a :: as ∧
    KMap.get? a (ascii "job-id") = some x ∧ x.2.ty ≠ some .int

end Spec

open Verif.Client.Spec

theorem shown_append (a b : List Event) : shownIds (a ++ b) = shownIds a ++ shownIds b := by
  unfold shownIds; rw [List.filterMap_append]

/-- What is to be shown of an action that ends with a reply: nothing unless it succeeds. -/
def Shows (env : Env) (x : Act (Option RunError)) : Prop :=
  (shownIds x.events = [] ∧ x.out ≠ .ok none) ∨
  (x.out = .ok none ∧ shownIds x.events = shownIds (printResult env.showJobId env.printReply).events ∧ (printResult env.showJobId env.printReply).out = .ok none)

theorem shows_bind {env : Env} {α : Type} {x : Act α} {f : α → Act (Option RunError)} (hx : shownIds x.events = []) (hf : ∀ a, Shows env (f a)) :
    Shows env (x >>= f) := by
  have e : (x >>= f) = Act.bind x f := rfl
  rw [e]
  unfold Act.bind
  split
  · rename_i a _
    rcases hf a with ⟨h1, h2⟩ | ⟨h1, h2, h3⟩
    · exact .inl ⟨by rw [shown_append, hx, h1]; rfl, h2⟩
    · exact .inr ⟨h1, by rw [shown_append, hx, h2]; rfl, h3⟩
  · exact .inl ⟨hx, fun h => by cases h⟩
  · exact .inl ⟨hx, fun h => by cases h⟩
  · exact .inl ⟨hx, fun h => by cases h⟩

theorem shows_some {env : Env} (e : RunError) : Shows env (pure (some e)) := .inl ⟨rfl, fun h => by cases h⟩

theorem shown_blocks (bs : List Bytes) : shownIds (blockEvents bs) = [] := by
  unfold shownIds blockEvents
  rw [List.filterMap_eq_nil_iff]
  intro e he
  obtain ⟨b, _, rfl⟩ := List.mem_map.mp he
  rfl

theorem result_shows (env : Env) : Shows env (printResult env.showJobId env.printReply) := by
  by_cases h : (printResult env.showJobId env.printReply).out = .ok none
  · exact .inr ⟨h, rfl, h⟩
  · refine .inl ⟨?_, h⟩
    unfold printResult at h ⊢
    split
    · rfl
    · rename_i data hd
      rw [hd] at h
      simp only at h
      cases hm : decodeMsg data with
      | ok x =>
        simp only [hm, lift_bind_ok] at h ⊢
        split
        · rename_i hs
          rw [if_pos hs] at h
          unfold showJob at h ⊢
          split
          · rfl
          · rename_i a as ha
            rw [ha] at h
            simp only at h
            split
            · rename_i hb
              rw [if_pos hb] at h
              cases hg : getInteger a (ascii "job-id") with
              | ok id => rw [hg] at h; exact absurd rfl h
              | throws e => rfl
              | ub => rfl
              | hang => rfl
            · rfl
        · cases getString x.1.opAttrs (ascii "status-message") (ascii "unknown") <;> rfl
      | throws e => rfl
      | ub => rfl
      | hang => rfl

theorem convert_shows (env : Env) (f : ConvertFun) (job : PrintJob) : Shows env (convertAndAwait env f job) := by
  unfold convertAndAwait
  split
  rename_i blocks r hr
  have hb : shownIds (blockEvents blocks ++ [.finish]) = [] := by rw [shown_append, shown_blocks]; rfl
  split
  · rcases result_shows env with ⟨h1, h2⟩ | ⟨h1, _, h3⟩
    · exact .inl ⟨by rw [shown_append, hb, h1]; rfl, h2⟩
    · exact .inr ⟨h1, by rw [shown_append, hb]; rfl, h3⟩
  · exact .inl ⟨hb, fun h => by cases h⟩
  · exact .inl ⟨hb, fun h => by cases h⟩
  · exact .inl ⟨shown_blocks _, fun h => by cases h⟩
  · exact .inl ⟨shown_blocks _, fun h => by cases h⟩

theorem doPrint_shows (env : Env) (id : Nat) (job : PrintJob) (f : ConvertFun) (m : Msg) : Shows env (doPrint env id job f m) := by
  unfold doPrint
  refine shows_bind rfl fun bytes => shows_bind rfl fun _ => shows_bind ?_ fun _ => convert_shows env f job
  unfold useCompression compressionEvents
  split
  · split
    · rfl
    · split <;> rfl
  · rfl
  · rfl
  · rfl

theorem transmit_shows (env : Env) (p : Printer) (job : PrintJob) (f : ConvertFun) (name : Bytes) (ops : List Int) : Shows env (transmit env p job f name ops) := by
  unfold transmit
  split
  · unfold createAndSend
    refine shows_bind rfl fun m => shows_bind ?_ fun r => ?_
    · unfold doRequest
      cases encodeMsg env.reqId m with
      | ok b => rw [lift_bind_ok, emit_bind]; cases received env.createReply <;> rfl
      | throws e => rfl
      | ub => rfl
      | hang => rfl
    · cases r with
      | error e => exact shows_some _
      | ok resp =>
        simp only [createResult]
        unfold afterCreate
        simp only
        split
        · exact shows_bind rfl fun id => shows_bind rfl fun m => doPrint_shows ..
        · exact shows_bind rfl fun s => shows_some _
  · exact shows_bind rfl fun m => doPrint_shows ..

theorem catch_shows {env : Env} {x : Act (Option RunError)} (h : Shows env x) : Shows env (catchAll x) := by
  unfold catchAll
  split
  · rename_i e he
    rcases h with ⟨h1, _⟩ | ⟨h1, _⟩
    · exact .inl ⟨h1, fun h => by cases h⟩
    · rw [he] at h1; cases h1
  · exact h

theorem run_shows (env : Env) (p : Printer) (job : PrintJob) (input name : Bytes) (pages : Int) (hp : ¬ IsFile p) :
    Shows env (runJob env p job input name pages) := by
  unfold runJob runJobWith
  apply catch_shows
  unfold tryRun
  refine shows_bind rfl fun ops => shows_bind rfl fun r => ?_
  obtain ⟨e, j⟩ := r
  cases e with
  | some e => exact shows_some _
  | none =>
    simp only [afterFinalize]
    split
    · exact shows_some _
    · unfold deliver
      rw [if_neg (fun h => hp ((startsWith_file p).mp h))]
      exact transmit_shows ..

/-- What a reply makes `printResult` show when it succeeds. -/
theorem result_told {b : Bool} {reply : Except Bytes Bytes} (h : (printResult b reply).out = .ok none) :
    (b = false ∧ shownIds (printResult b reply).events = []) ∨ (b = true ∧ ToldOr0 reply (shownIds (printResult b reply).events)) := by
  unfold printResult at h ⊢
  split at h
  · cases h
  · rename_i data
    obtain ⟨⟨m, rest⟩, hm, h⟩ := bind_out h
    have hm : decodeMsg data = .ok (m, rest) := hm
    simp only [hm, lift_bind_ok] at h ⊢
    split at h
    · rename_i hs
      rw [if_pos hs]
      unfold showJob at h ⊢
      split at h
      · rename_i hj
        cases b
        · exact .inl ⟨rfl, rfl⟩
        · exact .inr ⟨rfl, .inl ⟨data, m, rest, rfl, hm, .inl ⟨hj, rfl⟩⟩⟩
      · rename_i a as hj
        cases b
        · exact .inl ⟨rfl, rfl⟩
        · simp only [if_true] at h ⊢
          obtain ⟨id, hg, h⟩ := bind_out h
          have hg : getInteger a (ascii "job-id") = .ok id := hg
          simp only [hg, lift_bind_ok]
          refine .inr ⟨trivial, ?_⟩
          cases hk : KMap.get? a (ascii "job-id") with
          | none =>
            right
            refine ⟨data, m, rest, a, as, rfl, hm, hj, hk, ?_⟩
            unfold getInteger Attrs.get at hg
            rw [hk] at hg
            cases hg
            rfl
          | some x =>
            left
            obtain ⟨tag, hg'⟩ := getInteger_ok hg (by unfold KMap.has; rw [hk]; rfl)
            exact ⟨data, m, rest, rfl, hm, .inr ⟨a, as, tag, id, hj, hg', rfl⟩⟩
    · obtain ⟨_, _, h⟩ := bind_out h
      cases h

/-- What `print` has shown: nothing unless it ends with 0, and then what the reply to the document tells. -/
theorem print_shows {w : World} {p : Printer} {o : Options} {inFile : Bytes} {e : End} (hp : ¬ IsFile p) (h : (printCommand w p o inFile).out = .ok e) :
    (e.code ≠ 0 ∧ shownIds (printCommand w p o inFile).events = []) ∨
    (e.code = 0 ∧ ((o.printJobId = false ∧ shownIds (printCommand w p o inFile).events = []) ∨
      (o.printJobId = true ∧ ToldOr0 w.env.printReply (shownIds (printCommand w p o inFile).events)))) := by
  unfold printCommand at *
  obtain ⟨r, hr, h⟩ := bind_out h
  have hr : prepare w p o inFile = .ok r := hr
  simp only [hr, lift_bind_ok]
  cases r with
  | none => cases h; exact .inl ⟨by simp [failed], rfl⟩
  | some x =>
    obtain ⟨j, t⟩ := x
    simp only [launch] at h ⊢
    cases hn : countPages w t inFile with
    | none => rw [hn] at h; cases h; exact .inl ⟨by simp [failed], rfl⟩
    | some n =>
      rw [hn] at h
      simp only at h ⊢
      unfold submit at h ⊢
      obtain ⟨⟨b, store⟩, hs, h⟩ := bind_out h
      have hs : saved w o j = .ok (b, store) := hs
      simp only [hs, lift_bind_ok] at h ⊢
      cases b with
      | false => cases h; exact .inl ⟨by simp [failed], rfl⟩
      | true =>
        simp only [if_true] at h ⊢
        rw [bindPure] at h ⊢
        simp only at h ⊢
        obtain ⟨x, hx, h⟩ := Outcome.bind_eq_ok.mp h
        cases h
        rcases run_shows { w.env with reqId := nextId w p, showJobId := o.printJobId } p j t (fileName inFile) n hp with ⟨h1, h2⟩ | ⟨h1, h2, h3⟩
        · cases x with
          | none => exact absurd hx h2
          | some e => exact .inl ⟨by simp [endOf, failed], h1⟩
        · rw [h1] at hx
          cases hx
          refine .inr ⟨rfl, ?_⟩
          rw [h2]
          exact result_told h3

theorem told_unique {reply : Except Bytes Bytes} {ids ids' : List Int} (h : ToldOr0 reply ids) (h' : ToldOr0 reply ids') : ids = ids' := by
  rcases h with ⟨data, m, rest, hd, hm, h⟩ | ⟨data, m, rest, a, as, hd, hm, hj, hk, h⟩ <;>
    rcases h' with ⟨data', m', rest', hd', hm', h'⟩ | ⟨data', m', rest', a', as', hd', hm', hj', hk', h'⟩ <;>
    (rw [hd] at hd'; cases hd'; rw [hm] at hm'; cases hm')
  · rcases h with ⟨hj, h⟩ | ⟨a, as, tag, id, hj, hk, h⟩ <;> rcases h' with ⟨hj', h'⟩ | ⟨a', as', tag', id', hj', hk', h'⟩ <;> rw [h, h']
    · rw [hj] at hj'; cases hj'
    · rw [hj] at hj'; cases hj'
    · rw [hj] at hj'; cases hj'
      rw [hk] at hk'; cases hk'; rfl
  · rcases h with ⟨hj, h⟩ | ⟨a, as, tag, id, hj, hk, h⟩ <;> (rw [hj] at hj'; cases hj')
    rw [hk] at hk'; cases hk'
  · rcases h' with ⟨hj', h⟩ | ⟨a, as, tag, id, hj', hk', h⟩ <;> (rw [hj] at hj'; cases hj')
    rw [hk] at hk'; cases hk'
  · rw [h, h']

/-- **C84.** When `print --print-job-id` ends with 0, the number shown is the one with which the printer's reply tells of the job, once, or 0 when the reply
tells of the job without its number; without the option, and when `print` ends with 1, none is shown. -/
theorem C84_shown {w : World} {p : Printer} {o : Options} {inFile : Bytes} {e : End} (hp : ¬ IsFile p)
    (h : (printCommand w p o inFile).out = .ok e) :
    (e.code = 0 → o.printJobId = true → ∀ ids, ToldOr0 w.env.printReply ids ↔ shownIds (printCommand w p o inFile).events = ids) ∧
    (e.code ≠ 0 ∨ o.printJobId = false → shownIds (printCommand w p o inFile).events = []) := by
  refine ⟨fun hc ho ids => ?_, fun hc => ?_⟩
  · rcases print_shows hp h with ⟨h1, _⟩ | ⟨_, ⟨h1, _⟩ | ⟨_, h2⟩⟩
    · exact absurd hc h1
    · rw [ho] at h1; cases h1
    · exact ⟨fun ht => told_unique h2 ht, fun ht => ht ▸ h2⟩
  · rcases print_shows hp h with ⟨_, h1⟩ | ⟨h0, ⟨_, h1⟩ | ⟨h1, _⟩⟩
    · exact h1
    · exact h1
    · rcases hc with hc | hc
      · exact absurd h0 hc
      · rw [hc] at h1; cases h1

/-- C84, as one would like it: the number shown is that of the job that was created. -/
def C84_full : Prop := ∀ (w : World) (p : Printer) (o : Options) (inFile : Bytes) (e : End) (id : Int), ¬ IsFile p →
  (printCommand w p o inFile).out = .ok e → e.code = 0 → o.printJobId = true → Created w.env.createReply id →
  ∀ x ∈ shownIds (printCommand w p o inFile).events, x = id

/-- A printer that creates job 7, and whose reply to the document tells the state of the job but not its number. -/
def stateOnly : World :=
  { world with env := { exampleEnv with printReply := .ok ([1, 1, 0, 0, 0, 0, 0, 2, 2, 0x23, 0, 9] ++ ascii "job-state" ++ [0, 4, 0, 0, 0, 3, 3]) } }

/-- One that tells its number. -/
def withNumber : World :=
  { world with env := { exampleEnv with printReply := .ok ([1, 1, 0, 0, 0, 0, 0, 2, 2, 0x21, 0, 6] ++ ascii "job-id" ++ [0, 4, 0, 0, 0, 7, 3]) } }

/-- One that tells it as a text. -/
def numberAsText : World :=
  { world with env := { exampleEnv with printReply := .ok ([1, 1, 0, 0, 0, 0, 0, 2, 2, 0x42, 0, 6] ++ ascii "job-id" ++ [0, 1, 55, 3]) } }

/-- The exit code of `print --print-job-id` and the numbers it shows. -/
def printed (w : World) : Option (Nat × List Int) :=
  match (printCommand w rasterPrinter { rasterOptions with printJobId := true } (ascii "a.pdf")).out with
  | .ok e => some (e.code, shownIds (printCommand w rasterPrinter { rasterOptions with printJobId := true } (ascii "a.pdf")).events)
  | _ => none

/-- **C84, where it fails.** The job was created with the number 7. The reply to its document has attributes of the job, but not the number again: 0 is shown. -/
theorem C84_number_false : ¬ C84_full := by
  intro h
  have h1 : printed stateOnly = some (0, [0]) := by decide +kernel
  unfold printed at h1
  split at h1
  · rename_i e he
    injection h1 with h1
    injection h1 with hc hs
    have := h _ _ _ _ e 7 (by unfold IsFile; decide +kernel) he hc rfl
      ⟨_, { opOrStatus := 0, jobAttrs := [[(ascii "job-id", (0x21, .int 7))]] }, [], 0x21, _, [], rfl, by decide +kernel, by decide, rfl,
        by decide +kernel⟩ 0 (by rw [hs]; simp)
    exact absurd this (by decide)
  · cases h1

/-- C84, as one would like it: asking for the number does not change how `print` ends. -/
def C84_same_end : Prop := ∀ (w : World) (p : Printer) (o : Options) (inFile : Bytes) (e e' : End), o.printJobId = false →
  (printCommand w p o inFile).out = .ok e → (printCommand w p { o with printJobId := true } inFile).out = .ok e' → e'.code = e.code

/-- **C84, where it fails.** A reply with status 0 and a number of another type: the document was accepted, but `print --print-job-id` ends with 1. Without the
option it ends with 0. -/
theorem C84_accepted_false : ¬ C84_same_end := by
  intro h
  have h1 : printed numberAsText = some (1, []) := by decide +kernel
  have h2 : (match (printCommand numberAsText rasterPrinter rasterOptions (ascii "a.pdf")).out with
      | .ok e => e.code
      | _ => 1) = 0 := by decide +kernel
  unfold printed at h1
  split at h1
  · rename_i e' he'
    injection h1 with h1
    injection h1 with hc _
    split at h2
    · rename_i e he
      have := h numberAsText rasterPrinter rasterOptions (ascii "a.pdf") e e' rfl he he'
      rw [hc, h2] at this
      exact absurd this (by decide)
    · cases h2
  · cases h1

/-- With and without the number: the same end, or the reply has a number of another type. -/
def Alike (reply : Except Bytes Bytes) (e : Option RunError) (x y : Act (Option RunError)) : Prop :=
  x.out = y.out ∨ (OddNumber reply ∧ y.out = .ok none ∧ (x.out = .throws .badVariant ∨ x.out = .ok e))

theorem alike_bind {reply : Except Bytes Bytes} {e : Option RunError} {α : Type} {x : Act α} {f g : α → Act (Option RunError)} (h : ∀ a, Alike reply e (f a) (g a)) :
    Alike reply e (x >>= f) (x >>= g) := by
  have e1 : (x >>= f) = Act.bind x f := rfl
  have e2 : (x >>= g) = Act.bind x g := rfl
  rw [e1, e2]
  unfold Act.bind
  split
  · rename_i a _; exact h a
  · exact .inl rfl
  · exact .inl rfl
  · exact .inl rfl

theorem result_alike (e : Option RunError) (reply : Except Bytes Bytes) : Alike reply e (printResult true reply) (printResult false reply) := by
  unfold printResult
  split
  · exact .inl rfl
  · rename_i data
    cases hm : decodeMsg data with
    | ok x =>
      simp only [lift_bind_ok]
      split
      · rename_i hs
        unfold showJob
        split
        · exact .inl rfl
        · rename_i a as ha
          simp only [if_true, Bool.false_eq_true, if_false]
          cases hk : KMap.get? a (ascii "job-id") with
          | none =>
            have : getInteger a (ascii "job-id") = .ok 0 := by unfold getInteger Attrs.get; rw [hk]; rfl
            rw [this]
            exact .inl rfl
          | some v =>
            by_cases hv : v.2.ty = some .int
            · have : getInteger a (ascii "job-id") = .ok (intOf v.2) := by
                unfold getInteger Attrs.get; rw [hk]; simp only [getAs]; rw [if_pos hv]; rfl
              rw [this]
              exact .inl rfl
            · have : getInteger a (ascii "job-id") = .throws .badVariant := by
                unfold getInteger Attrs.get; rw [hk]; simp only [getAs]; rw [if_neg hv]; rfl
              rw [this]
              exact .inr ⟨⟨data, x.1, x.2, a, as, v, rfl, hm, hs, ha, hk, hv⟩, rfl, .inl rfl⟩
      · exact .inl rfl
    | throws e => exact .inl rfl
    | ub => exact .inl rfl
    | hang => exact .inl rfl

theorem doPrint_alike (env : Env) (r : Option RunError) (id : Nat) (job : PrintJob) (f : ConvertFun) (m : Msg) :
    Alike env.printReply r (doPrint { env with showJobId := true } id job f m) (doPrint { env with showJobId := false } id job f m) := by
  unfold doPrint
  refine alike_bind fun _ => alike_bind fun _ => alike_bind fun _ => ?_
  unfold convertAndAwait
  simp only
  split
  · exact result_alike r env.printReply
  · exact .inl rfl
  · exact .inl rfl
  · exact .inl rfl
  · exact .inl rfl

theorem catch_noThrow {x : Act (Option RunError)} (e : Exn) : (catchAll x).out ≠ .throws e := by
  obtain ⟨es, o⟩ := x
  unfold catchAll
  cases o <;> exact fun h => by cases h

theorem catch_alike {reply : Except Bytes Bytes} {x y : Act (Option RunError)} (h : Alike reply none x y) :
    Alike reply (some (.exception .badVariant)) (catchAll x) (catchAll y) := by
  obtain ⟨ex, ox⟩ := x
  obtain ⟨ey, oy⟩ := y
  rcases h with h | ⟨h1, h2, h3⟩
  · simp only at h
    subst h
    left
    unfold catchAll
    cases ox <;> rfl
  · simp only at h2 h3
    subst h2
    rcases h3 with h3 | h3
    · subst h3
      exact .inr ⟨h1, rfl, .inr rfl⟩
    · subst h3
      exact .inl rfl

theorem run_alike (env : Env) (p : Printer) (job : PrintJob) (input name : Bytes) (pages : Int) :
    Alike env.printReply (some (.exception .badVariant)) (runJob { env with showJobId := true } p job input name pages)
      (runJob { env with showJobId := false } p job input name pages) := by
  have main : Alike env.printReply none (tryRun { env with showJobId := true } p job.copy input name pages)
      (tryRun { env with showJobId := false } p job.copy input name pages) := by
    unfold tryRun
    refine alike_bind fun ops => alike_bind fun r => ?_
    obtain ⟨e, j⟩ := r
    cases e with
    | some e => exact .inl rfl
    | none =>
      simp only [afterFinalize]
      split
      · exact .inl rfl
      · unfold deliver
        split
        · exact .inl rfl
        · unfold transmit
          split
          · unfold createAndSend
            refine alike_bind fun m => alike_bind fun r => ?_
            cases r with
            | error e => exact .inl rfl
            | ok resp =>
              simp only [createResult]
              unfold afterCreate
              simp only
              split
              · exact alike_bind fun id => alike_bind fun m => doPrint_alike ..
              · exact .inl rfl
          · exact alike_bind fun m => doPrint_alike ..
  exact catch_alike main

theorem lift_same {o : Outcome α} {f g : α → Act β} (h : ∀ a, o ≠ .ok a) : (Act.lift o >>= f).out = (Act.lift o >>= g).out := by
  cases o with
  | ok a => exact absurd rfl (h a)
  | throws e => rfl
  | ub => rfl
  | hang => rfl

/-- **C84.** Asking for the number does not change how `print` ends, except when the printer accepts the document and tells of the number of the job by a value
that is no number: then `print` ends with 1 instead of 0. -/
theorem C84_end (w : World) (p : Printer) (o : Options) (inFile : Bytes) :
    (printCommand w p { o with printJobId := true } inFile).out = (printCommand w p { o with printJobId := false } inFile).out ∨
    (OddNumber w.env.printReply ∧
      (∃ e, (printCommand w p { o with printJobId := true } inFile).out = .ok e ∧ e.code = 1) ∧
      ∃ e, (printCommand w p { o with printJobId := false } inFile).out = .ok e ∧ e.code = 0) := by
  unfold printCommand
  have hp : prepare w p { o with printJobId := true } inFile = prepare w p { o with printJobId := false } inFile := rfl
  rw [hp]
  cases hr : prepare w p { o with printJobId := false } inFile with
  | throws e => exact .inl (lift_same (fun a h => by cases h))
  | ub => exact .inl (lift_same (fun a h => by cases h))
  | hang => exact .inl (lift_same (fun a h => by cases h))
  | ok r =>
    simp only [lift_bind_ok]
    cases r with
    | none => exact .inl rfl
    | some x =>
      obtain ⟨j, t⟩ := x
      simp only [launch]
      cases countPages w t inFile with
      | none => exact .inl rfl
      | some n =>
        simp only [submit]
        have hs : saved w { o with printJobId := true } j = saved w { o with printJobId := false } j := rfl
        rw [hs]
        cases saved w { o with printJobId := false } j with
        | throws e => exact .inl (lift_same (fun a h => by cases h))
        | ub => exact .inl (lift_same (fun a h => by cases h))
        | hang => exact .inl (lift_same (fun a h => by cases h))
        | ok b =>
          obtain ⟨b, store⟩ := b
          simp only [lift_bind_ok]
          cases b with
          | false => exact .inl (by rw [if_neg Bool.false_ne_true, if_neg Bool.false_ne_true])
          | true =>
            simp only [if_true]
            rw [bindPure, bindPure]
            simp only
            rcases run_alike { w.env with reqId := nextId w p } p j t (fileName inFile) n with h | ⟨h1, h2, h3⟩
            · exact .inl (by rw [h])
            · rcases h3 with h3 | h3
              · exact absurd h3 (catch_noThrow _)
              · exact .inr ⟨h1, ⟨_, by rw [h3]; rfl, rfl⟩, _, by rw [h2]; rfl, rfl⟩

/-- a number of another type -/
example : OddNumber numberAsText.env.printReply :=
  ⟨_, { opOrStatus := 0, jobAttrs := [[(ascii "job-id", (0x42, .str [55]))]] }, [], _, [], (0x42, .str [55]), rfl, by decide +kernel, by decide, rfl,
    by decide +kernel, by decide⟩

/-- a reply with the number -/
example : printed withNumber = some (0, [7]) ∧ Told withNumber.env.printReply [7] :=
  ⟨by decide +kernel, _, { opOrStatus := 0, jobAttrs := [[(ascii "job-id", (0x21, .int 7))]] }, [], rfl, by decide +kernel,
    .inr ⟨_, [], 0x21, 7, rfl, by decide +kernel, rfl⟩⟩

end Verif.Client
