import Verif.Discovery.Answers

/-! # From responses to reports, and to the queries that follow -/

namespace Verif.Discovery

open Spec

theorem makeIppsAddr_eq (port : Nat) (ip rp : Bytes) : makeIppsAddr port ip rp = ippsUri port ip rp := by
  unfold makeIppsAddr ippsUri makeAddr uri
  rw [ite_not]; rfl

theorem makeIppAddr_eq (port : Nat) (ip rp : Bytes) : makeIppAddr port ip rp = ippUri port ip rp := by
  unfold makeIppAddr ippUri makeAddr uri
  rw [ite_not]; rfl

theorem Knows.resolve {rs : List Record} {s : St} (h : Knows rs s) (it : Bytes) (port : Nat) (ips : List Bytes) (rp : Bytes) :
    Discovery.resolve s it = some (port, ips, rp) ↔ ∃ target, (services rs it).getLast? = some (port, target) ∧ ips = addresses rs target ∧ ips ≠ [] ∧
      (values rs it (ascii "rp")).getLast? = some rp := by
  have h1 := h.ports it
  have h2 := h.targets it
  have h3 := h.txts it (ascii "rp") (by decide +kernel)
  unfold Discovery.resolve
  rw [h1, h2, ← h3]
  cases (services rs it).getLast? with
  | none => simp
  | some pt =>
    obtain ⟨p, t⟩ := pt
    simp only [Option.map_some]
    cases s.txts.get? it with
    | none => simp
    | some m =>
      simp only [Option.bind_some]
      cases m.get? (ascii "rp") with
      | none => simp
      | some v =>
        rw [h.as t]
        by_cases ha : addresses rs t = []
        · rw [if_pos ha]
          simp only [reduceCtorEq, false_iff]
          rintro ⟨target, h1, h2, h3, -⟩
          cases h1; exact h3 (h2.trans ha)
        · rw [if_neg ha]
          constructor
          · intro h; cases h; exact ⟨t, rfl, rfl, ha, rfl⟩
          · rintro ⟨target, h1, rfl, -, h4⟩; cases h1; cases h4; rfl

/-! ## What asking and reporting do -/

/-- What asking and remembering pointers leave as they were. -/
structure SameKnown (s s' : St) : Prop where
  txts : s'.txts = s.txts
  ports : s'.ports = s.ports
  targets : s'.targets = s.targets
  as : s'.as = s.as
  found : s'.found = s.found
  reported : s'.reported = s.reported

theorem SameKnown.trans {a b c : St} (h : SameKnown a b) (h' : SameKnown b c) : SameKnown a c :=
  ⟨h'.txts.trans h.txts, h'.ports.trans h.ports, h'.targets.trans h.targets, h'.as.trans h.as, h'.found.trans h.found, h'.reported.trans h.reported⟩

theorem Knows.same {rs : List Record} {s s' : St} (h : Knows rs s) (hs : SameKnown s s') : Knows rs s' :=
  ⟨by rw [hs.ports]; exact h.ports, by rw [hs.targets]; exact h.targets, by rw [hs.as]; exact h.as, by rw [hs.txts]; exact h.txts, by rw [hs.txts]; exact h.has⟩

/-- A query of this type with this name was sent. -/
def Asked (s : St) (qtype : Nat) (n : Bytes) : Prop := ∃ Q ∈ s.sent, Q.qtype = qtype ∧ n ∈ Q.names

/-- What is remembered was asked, and no query was empty. -/
def Real (s : St) : Prop := (∀ e ∈ s.outstanding, Asked s e.1.1 e.1.2) ∧ ∀ Q ∈ s.sent, Q.names ≠ []

theorem Asked.mono {s s' : St} {q : Nat} {n : Bytes} (h : Asked s q n) (hs : s.sent <+: s'.sent) : Asked s' q n := by
  obtain ⟨Q, hQ, h⟩ := h
  exact ⟨Q, hs.subset hQ, h⟩

structure AskFacts (s s' : St) (q : Nat) (a : List Bytes) : Prop where
  same : SameKnown s s'
  ipp : s'.ippPtrs = s.ippPtrs
  ipps : s'.ippsPtrs = s.ippsPtrs
  sent : s.sent <+: s'.sent
  real : Real s → Real s' ∧ ∀ n ∈ a, Asked s' q n

theorem meant_facts (clock : Nat → Nat) (q : Nat) (a : List Bytes) (s : St) : AskFacts s (sendQueryMeant clock q a s) q a := by
  have hkept : ∀ s' : St, s.sent <+: s'.sent → Real s → ∀ n, n ∈ a → n ∉ unasked s.outstanding (seconds (clock s.calls)) q a → Asked s' q n := by
    intro s' hs hr n hn hnot
    apply Classical.byContradiction
    intro hna
    apply hnot
    unfold unasked
    rw [List.mem_filter]
    refine ⟨hn, ?_⟩
    simp only [Bool.not_eq_true', List.any_eq_false, Bool.and_eq_true, not_and]
    intro e he _ heq
    have h1 : e.1 = (q, n) := eq_of_beq heq
    have := (hr.1 e he).mono hs
    rw [h1] at this
    exact hna this
  unfold sendQueryMeant
  simp only []
  split
  · rename_i hnone
    refine ⟨⟨rfl, rfl, rfl, rfl, rfl, rfl⟩, rfl, rfl, List.prefix_refl _, fun hr => ⟨⟨fun e he => hr.1 e (List.mem_filter.1 he).1, hr.2⟩, fun n hn => ?_⟩⟩
    exact hkept _ (List.prefix_refl _) hr n hn (by rw [hnone]; simp)
  · rename_i hsome
    refine ⟨⟨rfl, rfl, rfl, rfl, rfl, rfl⟩, rfl, rfl, List.prefix_append _ _, fun hr => ⟨⟨fun e he => ?_, fun Q hQ => ?_⟩, fun n hn => ?_⟩⟩
    · have : ∀ (l : List Bytes) (o : List ((Nat × Bytes) × Nat)), e ∈ l.foldl (remember q (seconds (clock s.calls))) o → e ∈ o ∨ ∃ x ∈ l, e.1 = (q, x) := by
        intro l
        induction l with
        | nil => intro o h; exact .inl h
        | cons x l ih =>
          intro o h
          rcases ih _ h with h | ⟨y, hy, h⟩
          · unfold remember at h
            split at h
            · exact .inl h
            · rcases List.mem_append.1 h with h | h
              · exact .inl h
              · exact .inr ⟨x, List.mem_cons_self, by rw [List.mem_singleton.1 h]⟩
          · exact .inr ⟨y, List.mem_cons_of_mem _ hy, h⟩
      rcases this _ _ he with h | ⟨x, hx, h⟩
      · exact (hr.1 e (List.mem_filter.1 h).1).mono (List.prefix_append _ _)
      · exact ⟨_, List.mem_append_right _ (List.mem_singleton.2 rfl), by rw [h], by rw [h]; exact hx⟩
    · rcases List.mem_append.1 hQ with hQ | hQ
      · exact hr.2 Q hQ
      · rw [List.mem_singleton.1 hQ]; exact hsome
    · by_cases hm : n ∈ unasked s.outstanding (seconds (clock s.calls)) q a
      · exact ⟨_, List.mem_append_right _ (List.mem_singleton.2 rfl), rfl, hm⟩
      · exact hkept _ (List.prefix_append _ _) hr n hn hm

/-- What is done about new pointers. -/
structure PtrFacts (get other : St → List Bytes) (l : List Bytes) (s s' : St) : Prop where
  same : SameKnown s s'
  mem : ∀ p, p ∈ get s' ↔ p ∈ get s ∨ p ∈ l
  other : other s' = other s
  sent : s.sent <+: s'.sent
  real : Real s → Real s'
  asked : Real s → ∀ p ∈ l, p ∉ get s → (s.txts.has p = true ∨ Asked s' 16 p) ∧ ((s.targets.has p = true ∧ s.ports.has p = true) ∨ Asked s' 33 p)

theorem ptr_facts {ask : Nat → List Bytes → St → Outcome St} {get other : St → List Bytes} {put : List Bytes → St → St}
    (hask : ∀ q a s s', ask q a s = .ok s' → AskFacts s s' q a ∧ get s' = get s ∧ other s' = other s)
    (hput : ∀ l s, SameKnown s (put l s) ∧ get (put l s) = l ∧ other (put l s) = other s ∧ (put l s).sent = s.sent ∧ (put l s).outstanding = s.outstanding) :
    ∀ (l : List Bytes) (s s' : St), updateAndQueryPtrs ask get put l s = .ok s' → PtrFacts get other l s s' := by
  intro l
  induction l with
  | nil => intro s s' h; cases h; exact ⟨⟨rfl, rfl, rfl, rfl, rfl, rfl⟩, by simp, rfl, List.prefix_refl _, id, nofun⟩
  | cons ptr l ih =>
    intro s s' h
    unfold updateAndQueryPtrs at h
    split at h
    · rename_i hm
      have := ih _ _ h
      refine ⟨this.same, fun p => ?_, this.other, this.sent, this.real, fun hr p hp hn => ?_⟩
      · rw [this.mem, List.mem_cons]
        constructor
        · rintro (h | h)
          · exact .inl h
          · exact .inr (.inr h)
        · rintro (h | rfl | h)
          · exact .inl h
          · exact .inl hm
          · exact .inr h
      · rcases List.mem_cons.1 hp with rfl | hp
        · exact absurd hm hn
        · exact this.asked hr p hp hn
    · rename_i hm
      obtain ⟨s2, hs2, hj2⟩ := Outcome.bind_eq_ok.1 (show (Outcome.bind (if (put (get s ++ [ptr]) s).txts.has ptr then .ok (put (get s ++ [ptr]) s)
        else ask 16 [ptr] (put (get s ++ [ptr]) s)) _) = .ok s' from by
          rw [← h]; simp only []; split <;> rfl)
      obtain ⟨s3, hs3, hj3⟩ := Outcome.bind_eq_ok.1 (show (Outcome.bind (if s2.targets.has ptr = true ∧ s2.ports.has ptr = true then .ok s2
        else ask 33 [ptr] s2) (updateAndQueryPtrs ask get put l)) = .ok s' from by rw [← hj2]; split <;> rfl)
      obtain ⟨p1, p2, p3, p4, p5⟩ := hput (get s ++ [ptr]) s
      generalize hs1 : put (get s ++ [ptr]) s = s1 at *
      have r1 : Real s → Real s1 := by
        intro hr
        refine ⟨fun e he => ?_, by rw [p4]; exact hr.2⟩
        rw [p5] at he
        exact (hr.1 e he).mono (by rw [p4]; exact List.prefix_refl _)
      have f2 : SameKnown s1 s2 ∧ get s2 = get s1 ∧ other s2 = other s1 ∧ s1.sent <+: s2.sent ∧ (Real s1 → Real s2 ∧ (s1.txts.has ptr = true ∨ Asked s2 16 ptr)) := by
        by_cases hc : s1.txts.has ptr = true
        · rw [if_pos hc] at hs2; cases hs2
          exact ⟨⟨rfl, rfl, rfl, rfl, rfl, rfl⟩, rfl, rfl, List.prefix_refl _, fun hr => ⟨hr, .inl hc⟩⟩
        · rw [if_neg hc] at hs2
          obtain ⟨a, b, c⟩ := hask _ _ _ _ hs2
          exact ⟨a.same, b, c, a.sent, fun hr => ⟨(a.real hr).1, .inr ((a.real hr).2 ptr (by simp))⟩⟩
      have f3 : SameKnown s2 s3 ∧ get s3 = get s2 ∧ other s3 = other s2 ∧ s2.sent <+: s3.sent ∧
          (Real s2 → Real s3 ∧ ((s2.targets.has ptr = true ∧ s2.ports.has ptr = true) ∨ Asked s3 33 ptr)) := by
        by_cases hc : s2.targets.has ptr = true ∧ s2.ports.has ptr = true
        · rw [if_pos hc] at hs3; cases hs3
          exact ⟨⟨rfl, rfl, rfl, rfl, rfl, rfl⟩, rfl, rfl, List.prefix_refl _, fun hr => ⟨hr, .inl hc⟩⟩
        · rw [if_neg hc] at hs3
          obtain ⟨a, b, c⟩ := hask _ _ _ _ hs3
          exact ⟨a.same, b, c, a.sent, fun hr => ⟨(a.real hr).1, .inr ((a.real hr).2 ptr (by simp))⟩⟩
      have f4 := ih _ _ hj3
      have k2 := p1.trans f2.1
      have k3 := k2.trans f3.1
      have eget : get s3 = get s ++ [ptr] := f3.2.1.trans (f2.2.1.trans p2)
      have m13 : s1.sent <+: s3.sent := f2.2.2.2.1.trans f3.2.2.2.1
      refine ⟨k3.trans f4.same, fun p => ?_, f4.other.trans (f3.2.2.1.trans (f2.2.2.1.trans p3)), ?_, ?_, ?_⟩
      · rw [f4.mem, eget, List.mem_append, List.mem_singleton, List.mem_cons, or_assoc]
      · rw [← p4]; exact m13.trans f4.sent
      · intro hr; exact f4.real (f3.2.2.2.2 (f2.2.2.2.2 (r1 hr)).1).1
      · intro hr p hp hn
        have q2 := f2.2.2.2.2 (r1 hr)
        have q3 := f3.2.2.2.2 q2.1
        by_cases he : p = ptr
        · subst he
          refine ⟨?_, ?_⟩
          · rcases q2.2 with h | h
            · left; rw [← p1.txts]; exact h
            · right; exact h.mono (f3.2.2.2.1.trans f4.sent)
          · rcases q3.2 with h | h
            · left; rw [← k2.targets, ← k2.ports]; exact h
            · right; exact h.mono f4.sent
        · have := f4.asked q3.1 p ((List.mem_cons.1 hp).resolve_left he) (by rw [eget]; simp [he, hn])
          rw [k3.txts, k3.targets, k3.ports] at this
          exact this

/-- Everything that `update` reports is known. -/
theorem update_sound (s : St) : ∀ a ∈ (update s).reported, a ∈ s.reported ∨ ∃ it port ips rp ip, resolve s it = some (port, ips, rp) ∧ ip ∈ ips ∧
    ((it ∈ s.ippsPtrs ∧ a = makeIppsAddr port ip rp) ∨ (it ∈ s.ippPtrs ∧ a = makeIppAddr port ip rp)) := by
  have h1 : ∀ (port : Nat) (rp : Bytes) (ips : List Bytes) (p : St × List (Bytes × Bytes)), ∀ a ∈ (reportIpps port rp ips p).1.reported,
      a ∈ p.1.reported ∨ ∃ ip ∈ ips, a = makeIppsAddr port ip rp := by
    intro port rp ips
    induction ips with
    | nil => intro p a h; exact .inl h
    | cons i ips ih =>
      intro p a h
      unfold reportIpps at h
      split at h
      · rcases ih _ a h with h | ⟨ip, hip, h⟩
        · exact .inl h
        · exact .inr ⟨ip, List.mem_cons_of_mem _ hip, h⟩
      · rcases ih _ a h with h | ⟨ip, hip, h⟩
        · rcases List.mem_append.1 h with h | h
          · exact .inl h
          · exact .inr ⟨i, List.mem_cons_self, List.mem_singleton.1 h⟩
        · exact .inr ⟨ip, List.mem_cons_of_mem _ hip, h⟩
  have h2 : ∀ (port : Nat) (rp : Bytes) (secure : List (Bytes × Bytes)) (ips : List Bytes) (t : St), ∀ a ∈ (reportIpp port rp secure ips t).reported,
      a ∈ t.reported ∨ ∃ ip ∈ ips, a = makeIppAddr port ip rp := by
    intro port rp secure ips
    induction ips with
    | nil => intro p a h; exact .inl h
    | cons i ips ih =>
      intro p a h
      unfold reportIpp at h
      split at h
      · rcases ih _ a h with h | ⟨ip, hip, h⟩
        · exact .inl h
        · exact .inr ⟨ip, List.mem_cons_of_mem _ hip, h⟩
      · rcases ih _ a h with h | ⟨ip, hip, h⟩
        · rcases List.mem_append.1 h with h | h
          · exact .inl h
          · exact .inr ⟨i, List.mem_cons_self, List.mem_singleton.1 h⟩
        · exact .inr ⟨ip, List.mem_cons_of_mem _ hip, h⟩
  have h3 : ∀ (its : List Bytes) (p : St × List (Bytes × Bytes)), ∀ a ∈ (updateIpps its p).1.reported,
      a ∈ p.1.reported ∨ ∃ it ∈ its, ∃ port ips rp ip, resolve p.1 it = some (port, ips, rp) ∧ ip ∈ ips ∧ a = makeIppsAddr port ip rp := by
    intro its
    induction its with
    | nil => intro p a h; exact .inl h
    | cons it its ih =>
      intro p a h
      unfold updateIpps at h
      split at h
      · rename_i port ips rp hres
        rcases ih _ a h with h | ⟨it', hit, q⟩
        · rcases h1 _ _ _ _ a h with h | ⟨ip, hip, h⟩
          · exact .inl h
          · exact .inr ⟨it, List.mem_cons_self, port, ips, rp, ip, hres, hip, h⟩
        · rw [(reportIpps_same _ _ _ _).resolve] at q
          exact .inr ⟨it', List.mem_cons_of_mem _ hit, q⟩
      · rcases ih _ a h with h | ⟨it', hit, q⟩
        · exact .inl h
        · exact .inr ⟨it', List.mem_cons_of_mem _ hit, q⟩
  have h4 : ∀ (secure : List (Bytes × Bytes)) (its : List Bytes) (t : St), ∀ a ∈ (updateIpp secure its t).reported,
      a ∈ t.reported ∨ ∃ it ∈ its, ∃ port ips rp ip, resolve t it = some (port, ips, rp) ∧ ip ∈ ips ∧ a = makeIppAddr port ip rp := by
    intro secure its
    induction its with
    | nil => intro p a h; exact .inl h
    | cons it its ih =>
      intro p a h
      unfold updateIpp at h
      split at h
      · rename_i port ips rp hres
        rcases ih _ a h with h | ⟨it', hit, q⟩
        · rcases h2 _ _ _ _ _ a h with h | ⟨ip, hip, h⟩
          · exact .inl h
          · exact .inr ⟨it, List.mem_cons_self, port, ips, rp, ip, hres, hip, h⟩
        · rw [(reportIpp_same _ _ _ _ _).resolve] at q
          exact .inr ⟨it', List.mem_cons_of_mem _ hit, q⟩
      · rcases ih _ a h with h | ⟨it', hit, q⟩
        · exact .inl h
        · exact .inr ⟨it', List.mem_cons_of_mem _ hit, q⟩
  intro a ha
  unfold update at ha
  rcases h4 _ _ _ a ha with h | ⟨it, hit, port, ips, rp, ip, hres, hip, h⟩
  · rcases h3 _ _ a h with h | ⟨it, hit, port, ips, rp, ip, hres, hip, h⟩
    · exact .inl h
    · exact .inr ⟨it, port, ips, rp, ip, hres, hip, .inl ⟨hit, h⟩⟩
  · rw [(updateIpps_same _ _).resolve] at hres
    exact .inr ⟨it, port, ips, rp, ip, hres, hip, .inr ⟨hit, h⟩⟩

/-- Everything that is known is reported by `update`, when `found` and `reported` are the same. -/
theorem update_full (s : St) {it : Bytes} {port : Nat} {ips : List Bytes} {rp ip : Bytes} (hr : resolve s it = some (port, ips, rp)) (hip : ip ∈ ips) :
    (it ∈ s.ippsPtrs → makeIppsAddr port ip rp ∈ (update s).found) ∧
    (it ∈ s.ippPtrs → makeIppAddr port ip rp ∈ (update s).found ∨ ∃ port', makeIppsAddr port' ip rp ∈ (update s).found) := by
  have e1 := updateIpps_found s.ippsPtrs (s, [])
  have e2 := updateIpp_found (updateIpps s.ippsPtrs (s, [])).2 s.ippPtrs (updateIpps s.ippsPtrs (s, [])).1
  refine ⟨fun hit => e2.1 _ (e1.2 it hit port ips rp hr ip hip), fun hit => ?_⟩
  by_cases hs : (ip, rp) ∈ (updateIpps s.ippsPtrs (s, [])).2
  · right
    obtain ⟨port', hp1, hp2⟩ := secure_new s.ippsPtrs (s, []) (t := s) (fun _ _ h => by cases h) (fun _ h => h) _ _ hs
    exact ⟨port', e2.1 _ hp1⟩
  · left
    exact e2.2 it hit port ips rp (by rw [(updateIpps_same s.ippsPtrs (s, [])).resolve]; exact hr) ip hip hs

/-! ## The invariant -/

structure Inv (rss : List (List Record)) (s : St) : Prop where
  knows : Knows rss.flatten s
  ipp : ∀ p, p ∈ s.ippPtrs ↔ p ∈ pointers ippService rss.flatten
  ipps : ∀ p, p ∈ s.ippsPtrs ↔ p ∈ pointers ippsService rss.flatten
  found : s.reported = s.found
  secure : ∀ it port ip rp, Printer rss.flatten ippsService it port ip rp → ippsUri port ip rp ∈ s.reported
  plain : ∀ it port ip rp, Printer rss.flatten ippService it port ip rp → ippUri port ip rp ∈ s.reported ∨ ∃ port', ippsUri port' ip rp ∈ s.reported
  sound : ∀ a ∈ s.reported, ∃ j it port ip rp, (Printer (rss.take j).flatten ippsService it port ip rp ∧ a = ippsUri port ip rp) ∨
    (Printer (rss.take j).flatten ippService it port ip rp ∧ a = ippUri port ip rp)
  real : Real s
  described : ∀ p, p ∈ pointers ippService rss.flatten ∨ p ∈ pointers ippsService rss.flatten →
    (texts rss.flatten p ≠ [] ∨ Asked s 16 p) ∧ (services rss.flatten p ≠ [] ∨ Asked s 33 p)
  located : ∀ n port t, (port, t) ∈ services rss.flatten n → addresses rss.flatten t ≠ [] ∨ Asked s 1 t

theorem getLast?_mem' {α : Type} {l : List α} (h : l ≠ []) : ∃ x, l.getLast? = some x := ⟨l.getLast h, List.getLast?_eq_some_getLast h⟩

theorem Inv.step {clock : Nat → Nat} {ask : Nat → List Bytes → St → Outcome St} (hask : ∀ q a s s', ask q a s = .ok s' → s' = sendQueryMeant clock q a s)
    {rss : List (List Record)} {s s' : St} (h : Inv rss s) {msg : Bytes} {new : List Record}
    (hread : Read rss.flatten new { st := s, newIppPtrs := [], newIppsPtrs := [], newTargets := [], pos := 12 } (readResponse msg s))
    (hs : afterReading ask (readResponse msg s) = .ok s') : Inv (rss ++ [new]) s' := by
  have hsame := readResponse_same msg s
  generalize readResponse msg s = r at hread hsame hs
  have hf : ∀ q a s s', ask q a s = .ok s' → AskFacts s s' q a := fun q a s s' h => by rw [hask _ _ _ _ h]; exact meant_facts clock q a s
  unfold afterReading at hs
  simp only [Outcome.bind_eq_ok] at hs
  obtain ⟨s1, h1, s2, h2, hs⟩ := hs
  have f1 := ptr_facts (get := (·.ippsPtrs)) (other := (·.ippPtrs)) (put := fun l s => { s with ippsPtrs := l }) (fun q a s s' h => ⟨hf q a s s' h, (hf q a s s' h).ipps, (hf q a s s' h).ipp⟩)
    (fun l s => ⟨⟨rfl, rfl, rfl, rfl, rfl, rfl⟩, rfl, rfl, rfl, rfl⟩) _ _ _ h1
  have f2 := ptr_facts (get := (·.ippPtrs)) (other := (·.ippsPtrs)) (put := fun l s => { s with ippPtrs := l }) (fun q a s s' h => ⟨hf q a s s' h, (hf q a s s' h).ipp, (hf q a s s' h).ipps⟩)
    (fun l s => ⟨⟨rfl, rfl, rfl, rfl, rfl, rfl⟩, rfl, rfl, rfl, rfl⟩) _ _ _ h2
  obtain ⟨s3, f3, rfl⟩ : ∃ s3, (SameKnown s2 s3 ∧ s3.ippPtrs = s2.ippPtrs ∧ s3.ippsPtrs = s2.ippsPtrs ∧ s2.sent <+: s3.sent ∧
      (Real s2 → Real s3 ∧ ∀ t ∈ r.newTargets, s2.as.has t = true ∨ Asked s3 1 t)) ∧ s' = update s3 := by
    split at hs
    · rename_i hnone
      cases hs
      refine ⟨s2, ⟨⟨rfl, rfl, rfl, rfl, rfl, rfl⟩, rfl, rfl, List.prefix_refl _, fun hr => ⟨hr, fun t ht => ?_⟩⟩, rfl⟩
      left
      apply Classical.byContradiction
      intro hn
      have : t ∈ r.newTargets.filter (fun t => !s2.as.has t) := List.mem_filter.2 ⟨ht, by simpa using hn⟩
      rw [hnone] at this; cases this
    · obtain ⟨s3, h4, h5⟩ := Outcome.bind_eq_ok.1 hs
      cases h5
      have f := hf _ _ _ _ h4
      refine ⟨s3, ⟨f.same, f.ipp, f.ipps, f.sent, fun hr => ⟨(f.real hr).1, fun t ht => ?_⟩⟩, rfl⟩
      by_cases hn : s2.as.has t = true
      · exact .inl hn
      · exact .inr ((f.real hr).2 t (List.mem_filter.2 ⟨ht, by simpa using hn⟩))
  obtain ⟨g1, g2, g3, g4, g5⟩ := f3
  have efl : (rss ++ [new]).flatten = rss.flatten ++ new := by simp
  have hreal : Real r.st := by
    obtain ⟨-, -, e3, e4, -, -⟩ := hsame
    refine ⟨fun e he => ?_, by rw [e4]; exact h.real.2⟩
    rw [e3] at he
    exact (h.real.1 e he).mono (by rw [e4]; exact List.prefix_refl _)
  have k3 : SameKnown r.st s3 := (f1.same.trans f2.same).trans g1
  have hk3 : Knows (rss.flatten ++ new) s3 := hread.knows.same k3
  have hu := update_same s3
  have hku : Knows (rss.flatten ++ new) (update s3) :=
    ⟨by rw [hu.2.2.2.1]; exact hk3.ports, by rw [hu.2.2.2.2.1]; exact hk3.targets, by rw [hu.2.2.2.2.2.1]; exact hk3.as,
      by rw [hu.2.2.1]; exact hk3.txts, by rw [hu.2.2.1]; exact hk3.has⟩
  have mipp : ∀ p, p ∈ s3.ippPtrs ↔ p ∈ pointers ippService (rss.flatten ++ new) := by
    intro p
    rw [g2, f2.mem, f1.other, hread.oldIpp, h.ipp, hread.ipp, pointers_append, List.mem_append]
    simp
  have mipps : ∀ p, p ∈ s3.ippsPtrs ↔ p ∈ pointers ippsService (rss.flatten ++ new) := by
    intro p
    rw [g3, f2.other, f1.mem, hread.oldIpps, h.ipps, hread.ipps, pointers_append, List.mem_append]
    simp
  have e3 : s3.reported = s3.found := by rw [k3.reported, k3.found, hsame.1, hsame.2.1]; exact h.found
  have hfound : (update s3).reported = (update s3).found := by
    refine update_ind (P := fun s => s.reported = s.found) ?_ s3 e3
    intro a s _ h
    show s.reported ++ [a] = s.found ++ [a]
    rw [h]
  have hrep3 : s3.reported = s.reported := by rw [k3.reported, hsame.2.1]
  have sent1 : s.sent <+: s1.sent := by rw [← hsame.2.2.2.1]; exact f1.sent
  have sentu : (update s3).sent = s3.sent := hu.2.2.2.2.2.2.2.1
  have r1 := f1.real hreal
  have r2 := f2.real r1
  have r3 := (g5 r2).1
  have askedu : ∀ q n, Asked s3 q n → Asked (update s3) q n := fun q n h => h.mono (by rw [sentu]; exact List.prefix_refl _)
  have kr := hread.knows
  have hastxt : ∀ p, r.st.txts.has p = true → texts (rss.flatten ++ new) p ≠ [] := fun p hp => (kr.has p).1 hp
  have hassrv : ∀ p, r.st.targets.has p = true ∧ r.st.ports.has p = true → services (rss.flatten ++ new) p ≠ [] := by
    intro p hp hn
    have := kr.targets p
    rw [hn] at this
    have h2 := hp.1
    unfold KMap.has at h2
    rw [this] at h2; cases h2
  constructor
  · rw [efl]; exact hku
  · rw [efl]; intro p; rw [hu.1]; exact mipp p
  · rw [efl]; intro p; rw [hu.2.1]; exact mipps p
  · exact hfound
  · rw [efl]
    rintro it port ip rp ⟨hit, target, hsv, hip, hrp⟩
    have hne : addresses (rss.flatten ++ new) target ≠ [] := fun h => by rw [h] at hip; cases hip
    have := (update_full s3 ((hk3.resolve it port _ rp).2 ⟨target, hsv, rfl, hne, hrp⟩) hip).1 ((mipps it).2 hit)
    rw [hfound, ← makeIppsAddr_eq]; exact this
  · rw [efl]
    rintro it port ip rp ⟨hit, target, hsv, hip, hrp⟩
    have hne : addresses (rss.flatten ++ new) target ≠ [] := fun h => by rw [h] at hip; cases hip
    have := (update_full s3 ((hk3.resolve it port _ rp).2 ⟨target, hsv, rfl, hne, hrp⟩) hip).2 ((mipp it).2 hit)
    rw [hfound, ← makeIppAddr_eq]
    simp only [← makeIppsAddr_eq]; exact this
  · intro a ha
    rcases update_sound s3 a ha with ha | ⟨it, port, ips, rp, ip, hres, hip, hcase⟩
    · rw [hrep3] at ha
      obtain ⟨j, it, port, ip, rp, hj⟩ := h.sound a ha
      refine ⟨min j rss.length, it, port, ip, rp, ?_⟩
      have : (rss ++ [new]).take (min j rss.length) = rss.take j := by
        rw [List.take_append_of_le_length (Nat.min_le_right _ _)]
        by_cases hjl : j ≤ rss.length
        · rw [Nat.min_eq_left hjl]
        · rw [Nat.min_eq_right (by omega), List.take_of_length_le (Nat.le_refl _), List.take_of_length_le (by omega)]
      rw [this]; exact hj
    · obtain ⟨target, hsv, rfl, hne, hrp⟩ := (hk3.resolve it port ips rp).1 hres
      refine ⟨rss.length + 1, it, port, ip, rp, ?_⟩
      rw [List.take_of_length_le (by simp), efl]
      rcases hcase with ⟨hit, rfl⟩ | ⟨hit, rfl⟩
      · exact .inl ⟨⟨(mipps it).1 hit, target, hsv, hip, hrp⟩, makeIppsAddr_eq _ _ _⟩
      · exact .inr ⟨⟨(mipp it).1 hit, target, hsv, hip, hrp⟩, makeIppAddr_eq _ _ _⟩
  · refine ⟨fun e he => ?_, by rw [sentu]; exact r3.2⟩
    rw [hu.2.2.2.2.2.2.1] at he
    exact askedu _ _ (r3.1 e he)
  · rw [efl]
    intro p hp
    have old : p ∈ pointers ippService rss.flatten ∨ p ∈ pointers ippsService rss.flatten →
        (texts (rss.flatten ++ new) p ≠ [] ∨ Asked (update s3) 16 p) ∧ (services (rss.flatten ++ new) p ≠ [] ∨ Asked (update s3) 33 p) := by
      intro hp
      have := h.described p hp
      have mono : ∀ q, Asked s q p → Asked (update s3) q p := fun q h => h.mono (by
        rw [sentu]; exact sent1.trans (f2.sent.trans g4))
      refine ⟨this.1.imp (fun h hn => ?_) (mono 16), this.2.imp (fun h hn => ?_) (mono 33)⟩
      · rw [texts_append, List.append_eq_nil_iff] at hn; exact h hn.1
      · rw [services_append, List.append_eq_nil_iff] at hn; exact h hn.1
    by_cases ho : p ∈ pointers ippService rss.flatten ∨ p ∈ pointers ippsService rss.flatten
    · exact old ho
    · by_cases hs' : p ∈ pointers ippsService (rss.flatten ++ new)
      · have hnew : p ∈ r.newIppsPtrs := by
          rw [hread.ipps]
          rw [pointers_append, List.mem_append] at hs'
          simpa using hs'.resolve_left (fun h => ho (.inr h))
        have := f1.asked hreal p hnew (by rw [hread.oldIpps]; intro hm; exact ho (.inr ((h.ipps p).1 hm)))
        have mono : ∀ q, Asked s1 q p → Asked (update s3) q p := fun q h => h.mono (by rw [sentu]; exact f2.sent.trans g4)
        exact ⟨this.1.imp (hastxt p) (mono 16), this.2.imp (hassrv p) (mono 33)⟩
      · have hi := hp.resolve_right hs'
        have hnew : p ∈ r.newIppPtrs := by
          rw [hread.ipp]
          rw [pointers_append, List.mem_append] at hi
          simpa using hi.resolve_left (fun h => ho (.inl h))
        have := f2.asked r1 p hnew (by rw [f1.other, hread.oldIpp]; intro hm; exact ho (.inl ((h.ipp p).1 hm)))
        rw [f1.same.txts, f1.same.targets, f1.same.ports] at this
        have mono : ∀ q, Asked s2 q p → Asked (update s3) q p := fun q h => h.mono (by rw [sentu]; exact g4)
        exact ⟨this.1.imp (hastxt p) (mono 16), this.2.imp (hassrv p) (mono 33)⟩
  · rw [efl]
    intro n port t ht
    rw [services_append, List.mem_append] at ht
    rcases ht with ht | ht
    · rcases h.located n port t ht with h | h
      · left; rw [addresses_append]; simp [h]
      · right; exact h.mono (by rw [sentu]; exact sent1.trans (f2.sent.trans g4))
    · have hm : t ∈ r.newTargets := (hread.targets t).2 (.inr ⟨n, port, ht⟩)
      rcases (g5 r2).2 t hm with h | h
      · left
        intro hn
        have := (hread.knows.same (f1.same.trans f2.same)).as t
        rw [if_pos hn] at this
        unfold KMap.has at h
        rw [this] at h; cases h
      · exact .inr (askedu _ _ h)

/-- Before anything arrives. -/
theorem inv_first (clock : Nat → Nat) : Inv [] (sendQueryMeant clock 12 [ascii "_ipp._tcp.local", ascii "_ipps._tcp.local"] start) := by
  have f := meant_facts clock 12 [ascii "_ipp._tcp.local", ascii "_ipps._tcp.local"] start
  have hk : Knows [] start := ⟨fun _ => rfl, fun _ => rfl, fun _ => rfl, fun _ _ _ => rfl, fun _ => by simp [start, KMap.get?, texts]⟩
  refine ⟨hk.same f.same, ?_, ?_, ?_, ?_, ?_, ?_, ?_, ?_, ?_⟩
  · rw [f.ipp]; intro p; simp [pointers, start]
  · rw [f.ipps]; intro p; simp [pointers, start]
  · rw [f.same.reported, f.same.found]; rfl
  · rintro it port ip rp ⟨h, _⟩; simp [pointers] at h
  · rintro it port ip rp ⟨h, _⟩; simp [pointers] at h
  · rw [f.same.reported]; intro a ha; cases ha
  · exact (f.real ⟨nofun, nofun⟩).1
  · rintro p (h | h) <;> simp [pointers] at h
  · intro n port t h; simp [services] at h

/-- If reading each datagram gives what some records say that go with it, these say all that is known in the end. -/
theorem discover_inv_of {clock : Nat → Nat} {ask : Nat → List Bytes → St → Outcome St} (hask : ∀ q a s s', ask q a s = .ok s' → s' = sendQueryMeant clock q a s)
    {G : List Bytes → List (List Record) → Prop} (hnil : G [] [])
    (hcons : ∀ m ms, ∀ rs s, Knows rs s → ∃ new, (∀ rss, G ms rss → G (m :: ms) (new :: rss)) ∧
      Read rs new { st := s, newIppPtrs := [], newIppsPtrs := [], newTargets := [], pos := 12 } (readResponse m s))
    {msgs : List Bytes} {s : St} (h : discover ask msgs = .ok s) : ∃ rss, G msgs rss ∧ Inv rss s := by
  have recv : ∀ (msgs : List Bytes) (done : List (List Record)) (s s' : St), Inv done s → receive ask msgs s = .ok s' →
      ∃ rss, G msgs rss ∧ Inv (done ++ rss) s' := by
    intro msgs
    induction msgs with
    | nil => intro done s s' hi h; cases h; exact ⟨[], hnil, by simpa using hi⟩
    | cons m ms ih =>
      intro done s s' hi h
      unfold receive at h
      simp only [Outcome.bind_eq_ok] at h
      obtain ⟨s1, h1, h2⟩ := h
      obtain ⟨new, hg, hread⟩ := hcons m ms _ s hi.knows
      obtain ⟨rss, hG, hI⟩ := ih (done ++ [new]) s1 s' (hi.step hask hread h1) h2
      exact ⟨new :: rss, hg _ hG, by simpa using hI⟩
  unfold discover at h
  simp only [Outcome.bind_eq_ok] at h
  obtain ⟨s0, h0, h1⟩ := h
  refine Exists.imp (fun rss h => ?_) (recv msgs [] s0 s ?_ h1)
  · simpa using h
  · rw [hask _ _ _ _ h0]
    exact inv_first clock

theorem discover_inv {clock : Nat → Nat} {ask : Nat → List Bytes → St → Outcome St} (hask : ∀ q a s s', ask q a s = .ok s' → s' = sendQueryMeant clock q a s)
    {msgs : List Bytes} {rss : List (List Record)} (hr : Responses msgs rss) (hl : ∀ m ∈ msgs, m.length ≤ 4096) {s : St} (h : discover ask msgs = .ok s) :
    Inv rss s := by
  have recv : ∀ (msgs : List Bytes) (rss done : List (List Record)) (s s' : St), Responses msgs rss → (∀ m ∈ msgs, m.length ≤ 4096) → Inv done s → receive ask msgs s = .ok s' →
      Inv (done ++ rss) s' := by
    intro msgs
    induction msgs with
    | nil => intro rss done s s' hr hl hi h; cases hr; cases h; simpa using hi
    | cons m ms ih =>
      intro rss done s s' hr hl hi h
      cases hr with
      | @cons _ _ rs rss hr hrs =>
        unfold receive at h
        simp only [Outcome.bind_eq_ok] at h
        obtain ⟨s1, h1, h2⟩ := h
        have := ih rss (done ++ [rs]) s1 s' hrs (fun x hx => hl x (List.mem_cons_of_mem _ hx))
          (hi.step hask (readResponse_at (hl m List.mem_cons_self) hr hi.knows) h1) h2
        simpa using this
  unfold discover at h
  simp only [Outcome.bind_eq_ok] at h
  obtain ⟨s0, h0, h1⟩ := h
  have := recv msgs rss [] s0 s hr hl ?_ h1
  · simpa using this
  · rw [hask _ _ _ _ h0]
    exact inv_first clock

end Verif.Discovery
