import Verif.Discovery.ReportProps

/-! # When names are asked for -/

namespace Verif.Discovery

/-- Time does not run backwards between the calls of `sendQuery`. -/
def Forward (clock : Nat → Nat) : Prop := ∀ i j, i ≤ j → clock i ≤ clock j

/-- The queries of any program that calls `sendQuery` with whatever names at whatever times. -/
inductive History (clock : Nat → Nat) : St → Prop
  | start : History clock start
  | ask (q : Nat) (addrs : List Bytes) {s : St} : History clock s → History clock (sendQueryMeant clock q addrs s)
  | other {s s' : St} : History clock s → s'.outstanding = s.outstanding → s'.sent = s.sent → s'.calls = s.calls →
      s'.transactionId = s.transactionId → History clock s'

/-- Every discovery is such a program. -/
theorem discover_history {clock : Nat → Nat} {ask : Nat → List Bytes → St → Outcome St} {msgs : List Bytes} {s : St}
    (hask : ∀ q a s s', ask q a s = .ok s' → s' = sendQueryMeant clock q a s) (h : discover ask msgs = .ok s) : History clock s := by
  refine discover_ind (P := History clock) .start ?_ ?_ ?_ h
  · rintro s s' ⟨-, -, h1, h2, h3, h4⟩ hp; exact .other hp h1 h2 h3 h4
  · intro q a s s' h hp; rw [hask _ _ _ _ h]; exact .ask q a hp
  · intro s hp
    obtain ⟨-, -, -, -, -, -, h1, h2, h3, h4⟩ := update_same s
    exact .other hp h1 h2 h3 h4

/-- What `_outstandingQueries` says about the queries that were sent. -/
structure Kept (clock : Nat → Nat) (s : St) : Prop where
  /-- a name that was asked for is remembered, or was aged out by an earlier call -/
  kept : ∀ Q ∈ s.sent, ∀ n ∈ Q.names, ((Q.qtype, n), seconds Q.time) ∈ s.outstanding ∨
    ∃ i, i < s.calls ∧ seconds Q.time + 2 < seconds (clock i)
  /-- and nothing else is remembered -/
  real : ∀ e ∈ s.outstanding, ∃ Q ∈ s.sent, Q.qtype = e.1.1 ∧ e.1.2 ∈ Q.names ∧ seconds Q.time = e.2
  /-- two queries for the same name are apart -/
  apart : s.sent.Pairwise (fun Q Q' => Q.qtype = Q'.qtype → ∀ n ∈ Q.names, n ∈ Q'.names → seconds Q.time + 2 < seconds Q'.time)

theorem mem_remember {qtype now : Nat} {o : List ((Nat × Bytes) × Nat)} {a : Bytes} {e : (Nat × Bytes) × Nat} (h : e ∈ o) :
    e ∈ remember qtype now o a := by
  unfold remember; split
  · exact h
  · simp [h]

theorem mem_rememberAll {qtype now : Nat} {e : (Nat × Bytes) × Nat} : ∀ (as : List Bytes) (o : List ((Nat × Bytes) × Nat)), e ∈ o →
    e ∈ as.foldl (remember qtype now) o := by
  intro as
  induction as with
  | nil => intro o h; exact h
  | cons a as ih => intro o h; exact ih _ (mem_remember h)

theorem remembered {qtype now : Nat} {n : Bytes} : ∀ (as : List Bytes) (o : List ((Nat × Bytes) × Nat)),
    (∀ e ∈ o, e.1 = (qtype, n) → e.2 = now) → n ∈ as → ((qtype, n), now) ∈ as.foldl (remember qtype now) o := by
  intro as
  induction as with
  | nil => intro o _ h; cases h
  | cons a as ih =>
    intro o ho hn
    rw [List.foldl_cons]
    by_cases ha : a = n
    · subst ha
      apply mem_rememberAll
      unfold remember
      split
      · rename_i hany
        obtain ⟨e, he, heq⟩ := List.any_eq_true.1 hany
        have h1 : e.1 = (qtype, a) := eq_of_beq heq
        have h2 := ho e he h1
        obtain ⟨k, v⟩ := e
        cases h1; cases h2; exact he
      · simp
    · refine ih _ ?_ ((List.mem_cons.1 hn).resolve_left (fun h => ha h.symm))
      intro e he h1
      unfold remember at he
      split at he
      · exact ho e he h1
      · rcases List.mem_append.1 he with he | he
        · exact ho e he h1
        · rw [List.mem_singleton.1 he]

theorem rememberAll_only {qtype now : Nat} {e : (Nat × Bytes) × Nat} : ∀ (as : List Bytes) (o : List ((Nat × Bytes) × Nat)),
    e ∈ as.foldl (remember qtype now) o → e ∈ o ∨ (∃ a ∈ as, e = ((qtype, a), now)) := by
  intro as
  induction as with
  | nil => intro o h; exact .inl h
  | cons a as ih =>
    intro o h
    rcases ih _ h with h | ⟨b, hb, rfl⟩
    · unfold remember at h
      split at h
      · exact .inl h
      · rcases List.mem_append.1 h with h | h
        · exact .inl h
        · exact .inr ⟨a, List.mem_cons_self, List.mem_singleton.1 h⟩
    · exact .inr ⟨b, List.mem_cons_of_mem _ hb, rfl⟩

theorem mem_unasked {o : List ((Nat × Bytes) × Nat)} {now q : Nat} {addrs : List Bytes} {n : Bytes} :
    n ∈ unasked o now q addrs ↔ n ∈ addrs ∧ ∀ e ∈ o, e.1 = (q, n) → e.2 + 2 < now := by
  unfold unasked
  rw [List.mem_filter]
  refine and_congr_right fun _ => ?_
  simp only [Bool.not_eq_true', List.any_eq_false, Bool.and_eq_true, Bool.not_eq_true', not_and, aged, decide_eq_false_iff_not, beq_iff_eq]
  constructor
  · intro h e he h1; exact Classical.byContradiction fun hn => h e he hn h1
  · intro h e he hn h1; exact hn (h e he h1)

theorem history_kept {clock : Nat → Nat} (hc : Forward clock) {s : St} (h : History clock s) : Kept clock s := by
  induction h with
  | start => exact ⟨nofun, nofun, List.Pairwise.nil⟩
  | other _ h1 h2 h3 h4 ih => exact ⟨by rw [h1, h2, h3]; exact ih.kept, by rw [h1, h2]; exact ih.real, by rw [h2]; exact ih.apart⟩
  | @ask q addrs s _ ih =>
    have sec : ∀ i, i < s.calls → seconds (clock i) ≤ seconds (clock s.calls) := fun i hi => Nat.div_le_div_right (hc i s.calls (by omega))
    have keep : ∀ Q ∈ s.sent, ∀ n ∈ Q.names,
        ((Q.qtype, n), seconds Q.time) ∈ s.outstanding.filter (fun e => !aged (seconds (clock s.calls)) e) ∨
        ∃ i, i < s.calls + 1 ∧ seconds Q.time + 2 < seconds (clock i) := by
      intro Q hQ n hn
      rcases ih.kept Q hQ n hn with h | ⟨i, hi, h⟩
      · by_cases ha : seconds Q.time + 2 < seconds (clock s.calls)
        · exact .inr ⟨s.calls, by omega, ha⟩
        · exact .inl (List.mem_filter.2 ⟨h, by simp [aged, ha]⟩)
      · exact .inr ⟨i, by omega, h⟩
    unfold sendQueryMeant
    simp only
    split
    · exact ⟨keep, fun e he => ih.real e (List.mem_filter.1 he).1, ih.apart⟩
    · refine ⟨?_, ?_, ?_⟩
      · intro Q hQ n hn
        rcases List.mem_append.1 hQ with hQ | hQ
        · rcases keep Q hQ n hn with h | h
          · exact .inl (mem_rememberAll _ _ h)
          · exact .inr h
        · rw [List.mem_singleton.1 hQ] at hn ⊢
          left
          refine remembered _ _ ?_ hn
          intro e he h1
          have := (mem_unasked.1 hn).2 e (List.mem_filter.1 he).1 h1
          have h2 := (List.mem_filter.1 he).2
          simp [aged] at h2
          omega
      · intro e he
        rcases rememberAll_only _ _ he with h | ⟨a, ha, rfl⟩
        · obtain ⟨Q, hQ, h⟩ := ih.real e (List.mem_filter.1 h).1
          exact ⟨Q, List.mem_append_left _ hQ, h⟩
        · exact ⟨_, List.mem_append_right _ (List.mem_singleton.2 rfl), rfl, ha, rfl⟩
      · rw [List.pairwise_append]
        refine ⟨ih.apart, by simp, ?_⟩
        intro Q hQ Q' hQ' hq n hn hn'
        rw [List.mem_singleton.1 hQ'] at hq hn' ⊢
        simp only at hq hn' ⊢
        rcases ih.kept Q hQ n hn with h | ⟨i, hi, h⟩
        · exact (mem_unasked.1 hn').2 _ h (by rw [hq])
        · have := sec i hi; omega

theorem apart_ns {a b : Nat} (h : seconds a + 2 < seconds b) : a + 2 * 1000000000 < b := by
  unfold seconds at h; omega

/-- **C53.** In the whole history of a discovery the same name and type are asked again only when more than two seconds have passed: for every two
queries, an earlier and a later one. -/
theorem C53_apart_partial {clock : Nat → Nat} (hc : Forward clock) {s : St} (h : History clock s) :
    s.sent.Pairwise (fun Q Q' => Q.qtype = Q'.qtype → ∀ n, n ∈ Q.names → n ∈ Q'.names → Q.time + 2 * 1000000000 < Q'.time) :=
  (history_kept hc h).apart.imp fun h hq n hn hn' => apart_ns (h hq n hn hn')

/-- **C53.** The same for a discovery with any datagrams, as the program does it. -/
theorem C53_discover_partial {clock : Nat → Nat} (hc : Forward clock) {msgs : List Bytes} {s : St} (h : discover (sendQuery clock) msgs = .ok s) :
    s.sent.Pairwise (fun Q Q' => Q.qtype = Q'.qtype → ∀ n, n ∈ Q.names → n ∈ Q'.names → Q.time + 2 * 1000000000 < Q'.time) :=
  C53_apart_partial hc (discover_history (fun _ _ _ _ h => sendQuery_ok h) h)

/-- **C53.** A name that was not asked for with this type in the last three seconds is asked for, in one query that holds the names of the list in their
order. Missing: between two and three seconds (`C53_asked_false`), and the ageing itself, which the program leaves undefined (`C53_ageing_false`). -/
theorem C53_asked_partial {clock : Nat → Nat} (hc : Forward clock) {s : St} (h : History clock s) (q : Nat) (addrs : List Bytes) {n : Bytes} (hn : n ∈ addrs)
    (hold : ∀ Q ∈ s.sent, Q.qtype = q → n ∈ Q.names → Q.time + 3 * 1000000000 ≤ clock s.calls) :
    ∃ Q, (sendQueryMeant clock q addrs s).sent = s.sent ++ [Q] ∧ Q.qtype = q ∧ Q.time = clock s.calls ∧ n ∈ Q.names ∧ Q.names.Sublist addrs ∧
      Q.datagram = makeQuery s.transactionId q Q.names := by
  have hk := history_kept hc h
  have hm : n ∈ unasked s.outstanding (seconds (clock s.calls)) q addrs := by
    refine mem_unasked.2 ⟨hn, fun e he h1 => ?_⟩
    obtain ⟨Q, hQ, h2, h3, h4⟩ := hk.real e he
    rw [h1] at h2 h3
    have := hold Q hQ h2 h3
    rw [← h4]; unfold seconds; omega
  unfold sendQueryMeant
  simp only
  rw [if_neg (by intro h0; rw [h0] at hm; cases hm)]
  exact ⟨_, rfl, rfl, rfl, hm, List.filter_sublist, rfl⟩

/-- **C53.** A name that was asked for with this type in the last two seconds is not in the query. -/
theorem C53_throttled {clock : Nat → Nat} (hc : Forward clock) {s : St} (h : History clock s) (q : Nat) (addrs : List Bytes) {Q : Query} (hQ : Q ∈ s.sent)
    (hq : Q.qtype = q) {n : Bytes} (hn : n ∈ Q.names) (ht : clock s.calls ≤ Q.time + 2 * 1000000000) :
    ∀ Q' , (sendQueryMeant clock q addrs s).sent = s.sent ++ [Q'] → n ∉ Q'.names := by
  intro Q' hs hn'
  have := C53_apart_partial hc (History.ask q addrs h)
  rw [hs, List.pairwise_append] at this
  have h1 := this.2.2 Q hQ Q' (List.mem_singleton.2 rfl)
  have hq' : Q'.qtype = q ∧ Q'.time = clock s.calls := by
    unfold sendQueryMeant at hs
    simp only at hs
    split at hs
    · exfalso; have := congrArg List.length hs; simp at this
    · have := List.append_cancel_left hs
      injection this with h _
      rw [← h]; exact ⟨rfl, rfl⟩
  have := h1 (by rw [hq'.1, hq]) n hn hn'
  omega

/-- **C53, where it fails.** Asked for at 0.0 s, and wanted at 2.9 s: not asked for again, though more than two seconds have passed. -/
theorem C53_asked_false : ¬ ∀ (clock : Nat → Nat), Forward clock → ∀ (s : St), History clock s → ∀ (q : Nat) (addrs : List Bytes) (n : Bytes), n ∈ addrs →
    (∀ Q ∈ s.sent, Q.qtype = q → n ∈ Q.names → Q.time + 2 * 1000000000 < clock s.calls) →
    ∃ Q, (sendQueryMeant clock q addrs s).sent = s.sent ++ [Q] ∧ n ∈ Q.names := by
  intro h
  have := h (fun i => if i = 0 then 0 else 2900000000) (by intro i j hij; simp only; split <;> split <;> omega) _
    (History.ask 1 [ascii "a"] .start) 1 [ascii "a"] (ascii "a") (by simp)
    (by
      have : (sendQueryMeant (fun i => if i = 0 then 0 else 2900000000) 1 [ascii "a"] start).sent.all (fun Q => Q.time == 0) = true := by decide +kernel
      intro Q hQ _ _
      rw [eq_of_beq (List.all_eq_true.1 this Q hQ)]; decide +kernel)
  obtain ⟨Q, h1, -⟩ := this
  have h2 := congrArg List.length h1
  rw [List.length_append, List.length_singleton] at h2
  revert h2; decide +kernel

/-- **C53, where it fails.** A query at 0 s and another one at 5 s, for any name: the program's behaviour is undefined when the old entry is aged out. -/
theorem C53_ageing_false : ∃ clock, Forward clock ∧ ∃ s, sendQuery clock 1 [ascii "a"] start = .ok s ∧ sendQuery clock 1 [ascii "b"] s = .ub :=
  ⟨fun i => 5000000000 * i, fun i j h => Nat.mul_le_mul_left _ h, _, rfl, by decide +kernel⟩

/-- The datagrams come in time: the whole discovery lasts less than three seconds. -/
def Short (clock : Nat → Nat) : Prop := ∀ i, clock i ≤ clock 0 + 2 * 1000000000

/-- **C53.** While nothing is aged out the program does what is meant. -/
theorem C53_defined_partial {clock : Nat → Nat} {q : Nat} {addrs : List Bytes} {s : St} (h : ∀ e ∈ s.outstanding, seconds (clock s.calls) ≤ e.2 + 2) :
    sendQuery clock q addrs s = .ok (sendQueryMeant clock q addrs s) := by
  unfold sendQuery
  rw [if_neg]
  intro hany
  obtain ⟨e, he, ha⟩ := List.any_eq_true.1 hany
  simp [aged] at ha
  have := h e he
  omega

theorem history_times {clock : Nat → Nat} {s : St} (h : History clock s) : ∀ Q ∈ s.sent, ∃ i, Q.time = clock i := by
  induction h with
  | start => exact nofun
  | other _ _ h2 _ _ ih => rw [h2]; exact ih
  | @ask q addrs s _ ih =>
    unfold sendQueryMeant
    simp only
    split
    · exact ih
    · intro Q hQ
      rcases List.mem_append.1 hQ with hQ | hQ
      · exact ih Q hQ
      · rw [List.mem_singleton.1 hQ]; exact ⟨_, rfl⟩

/-- When asking succeeds in all states that can come up, the discovery succeeds. -/
theorem discover_total {ask : Nat → List Bytes → St → Outcome St} {P : St → Prop} (hstart : P start)
    (hframe : ∀ s s', SameOut s s' → P s → P s') (hask : ∀ q a s, P s → ∃ s', ask q a s = .ok s' ∧ P s')
    (hupdate : ∀ s, P s → P (update s)) (msgs : List Bytes) : ∃ s, discover ask msgs = .ok s := by
  have ptrs : ∀ (get : St → List Bytes) (put : List Bytes → St → St), (∀ l s, SameOut s (put l s)) → ∀ (l : List Bytes) (s : St), P s →
      ∃ s', updateAndQueryPtrs ask get put l s = .ok s' ∧ P s' := by
    intro get put hput l
    induction l with
    | nil => intro s hp; exact ⟨s, rfl, hp⟩
    | cons ptr l ih =>
      intro s hp
      unfold updateAndQueryPtrs
      split
      · exact ih _ hp
      · have p1 := hframe _ _ (hput (get s ++ [ptr]) s) hp
        have rest : ∀ s2, P s2 → ∃ s', (if s2.targets.has ptr ∧ s2.ports.has ptr then updateAndQueryPtrs ask get put l s2
            else (ask 33 [ptr] s2).bind (updateAndQueryPtrs ask get put l)) = .ok s' ∧ P s' := by
          intro s2 p2
          split
          · exact ih _ p2
          · obtain ⟨s3, h3, p3⟩ := hask 33 [ptr] s2 p2
            rw [h3]; exact ih _ p3
        simp only
        split
        · exact rest _ p1
        · obtain ⟨s2, h2, p2⟩ := hask 16 [ptr] _ p1
          obtain ⟨s', h', p'⟩ := rest s2 p2
          exact ⟨s', by rw [h2]; exact h', p'⟩
  have after : ∀ r, P r.st → ∃ s', afterReading ask r = .ok s' ∧ P s' := by
    intro r hp
    unfold afterReading
    obtain ⟨s1, h1, p1⟩ := ptrs (·.ippsPtrs) (fun l s => { s with ippsPtrs := l }) (fun l s => ⟨rfl, rfl, rfl, rfl, rfl, rfl⟩) r.newIppsPtrs _ hp
    obtain ⟨s2, h2, p2⟩ := ptrs (·.ippPtrs) (fun l s => { s with ippPtrs := l }) (fun l s => ⟨rfl, rfl, rfl, rfl, rfl, rfl⟩) r.newIppPtrs _ p1
    simp only [h1, h2, Outcome.bind_ok]
    split
    · exact ⟨_, rfl, hupdate _ p2⟩
    · obtain ⟨s3, h3, p3⟩ := hask 1 (r.newTargets.filter (fun t => !s2.as.has t)) s2 p2
      rw [h3]; exact ⟨_, rfl, hupdate _ p3⟩
  have recv : ∀ msgs s, P s → ∃ s', receive ask msgs s = .ok s' ∧ P s' := by
    intro msgs
    induction msgs with
    | nil => intro s hp; exact ⟨s, rfl, hp⟩
    | cons m ms ih =>
      intro s hp
      unfold receive
      obtain ⟨s1, h1, p1⟩ := after _ (hframe _ _ (readResponse_same m s) hp)
      rw [h1]; exact ih _ p1
  unfold discover
  obtain ⟨s0, h0, p0⟩ := hask 12 [ascii "_ipp._tcp.local", ascii "_ipps._tcp.local"] start hstart
  obtain ⟨s, h, -⟩ := recv msgs s0 p0
  exact ⟨s, by rw [h0]; exact h⟩

/-- **C53.** A discovery that lasts no more than two seconds is defined to its end, whatever arrives. -/
theorem C53_short_partial {clock : Nat → Nat} (hc : Forward clock) (hs : Short clock) (msgs : List Bytes) :
    ∃ s, discover (sendQuery clock) msgs = .ok s := by
  refine discover_total (P := History clock) .start ?_ ?_ ?_ msgs
  · rintro s s' ⟨-, -, h1, h2, h3, h4⟩ hp; exact .other hp h1 h2 h3 h4
  · intro q a s hp
    refine ⟨_, C53_defined_partial ?_, .ask q a hp⟩
    intro e he
    obtain ⟨Q, hQ, -, -, h4⟩ := (history_kept hc hp).real e he
    obtain ⟨i, hi⟩ := history_times hp Q hQ
    have h0 := hc 0 i (Nat.zero_le _)
    have h1 := hs s.calls
    rw [← h4, hi]; unfold seconds; omega
  · intro s hp
    obtain ⟨-, -, -, -, -, -, h1, h2, h3, h4⟩ := update_same s
    exact .other hp h1 h2 h3 h4

/-- a clock that meets both -/
example : Forward (fun i => min (100000000 * i) 1900000000) ∧ Short (fun i => min (100000000 * i) 1900000000) :=
  ⟨fun i j h => by simp only; omega, fun i => by simp only; omega⟩

/-- the hypotheses of the throttling theorems are met: the second query asks for one of the two names -/
example : Forward (fun i => 1000000000 * i) ∧ ∃ s, History (fun i => 1000000000 * i) s ∧ s.sent.map (·.names) = [[ascii "a"], [ascii "b"], [ascii "a"]] :=
  ⟨fun _ _ h => Nat.mul_le_mul_left _ h, _,
    .ask 1 [ascii "a"] (.ask 1 [ascii "a"] (.ask 1 [ascii "a", ascii "b"] (.ask 1 [ascii "a"] .start))), by decide +kernel⟩

end Verif.Discovery
