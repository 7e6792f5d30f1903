import Verif.Discovery.Tool

/-! # A datagram that arrives again (C124)

Nothing new is modelled here. Responders repeat their announcements, and several copies of a datagram arrive when a host has several interfaces. -/

namespace Verif.Discovery

open Verif.Discovery.Spec
open Verif.Text (endsWith)

/-! ## Specification -/

/-- The value of a key in the description of a name, as far as it is known -/
def valueOf (s : St) (n key : Bytes) : Option Bytes := (s.txts.get? n).bind (·.get? key)

/-- The addresses that are known for a host -/
def ipsOf (s : St) (n : Bytes) : List Bytes := (s.as.get? n).getD []

/-- What is known stays as it is: the names of printers in their order, ports, hosts and descriptions, and, as sets, the addresses. -/
structure Remains (s s' : St) : Prop where
  ipp : s'.ippPtrs = s.ippPtrs
  ipps : s'.ippsPtrs = s.ippsPtrs
  ports : ∀ n, s'.ports.get? n = s.ports.get? n
  targets : ∀ n, s'.targets.get? n = s.targets.get? n
  described : ∀ n, s'.txts.has n = s.txts.has n
  values : ∀ n key, valueOf s' n key = valueOf s n key
  addresses : ∀ n ip, ip ∈ ipsOf s' n ↔ ip ∈ ipsOf s n

theorem Remains.trans {a b c : St} (h : Remains a b) (h' : Remains b c) : Remains a c :=
  ⟨h'.ipp.trans h.ipp, h'.ipps.trans h.ipps, fun n => (h'.ports n).trans (h.ports n), fun n => (h'.targets n).trans (h.targets n), fun n => (h'.described n).trans (h.described n),
    fun n k => (h'.values n k).trans (h.values n k), fun n ip => (h'.addresses n ip).trans (h.addresses n ip)⟩

/-! ## Reading does the same to every state -/

/-- What a record does -/
inductive Eff where
  | txt (a k v : Bytes)
  | srv (a : Bytes) (port : Nat) (t : Bytes)
  | addr (a ip : Bytes)

def Eff.apply (s : St) : Eff → St
  | .txt a k v => { s with txts := s.txts.assign a (((s.txts.get? a).getD []).assign k v) }
  | .srv a port t => { s with ports := s.ports.assign a port, targets := s.targets.assign a t }
  | .addr a ip => { s with as := s.as.assign a ((s.as.get? a).getD [] ++ [ip]) }

theorem readTxts_effs (msg a : Bytes) (stop : Nat) (i j t : List Bytes) : ∀ (fuel pos : Nat), ∃ (b : Bool) (es : List Eff) (p : Nat),
    ∀ st, readTxts msg a stop fuel ⟨st, i, j, t, pos⟩ = (b, ⟨es.foldl Eff.apply st, i, j, t, p⟩) := by
  intro fuel
  induction fuel with
  | zero => intro pos; exact ⟨decide (pos ≥ stop), [], pos, fun st => rfl⟩
  | succ fuel ih =>
    intro pos
    unfold readTxts
    by_cases h : pos < stop
    · simp only [if_pos h]
      cases hl : getLabel msg pos with
      | ok x =>
        obtain ⟨txt, p⟩ := x
        simp only
        obtain ⟨b, es, p', h'⟩ := ih p
        exact ⟨b, .txt a (txt.takeWhile (· ≠ 61)) (if 61 ∈ txt then (txt.dropWhile (· ≠ 61)).drop 1 else txt) :: es, p', fun st => h' _⟩
      | throws e => exact ⟨false, [], pos, fun st => rfl⟩
      | ub => exact ⟨false, [], pos, fun st => rfl⟩
      | hang => exact ⟨false, [], pos, fun st => rfl⟩
    · simp only [if_neg h]
      exact ⟨true, [], pos, fun st => rfl⟩

theorem readRecord_effs (msg : Bytes) (i j t : List Bytes) (pos : Nat) : ∃ (b : Bool) (es : List Eff) (i' j' t' : List Bytes) (p : Nat),
    ∀ st, readRecord msg ⟨st, i, j, t, pos⟩ = (b, ⟨es.foldl Eff.apply st, i', j', t', p⟩) := by
  unfold readRecord
  simp only
  split
  · rename_i aaddr atype len p _
    by_cases h12 : atype = 12
    · simp only [if_pos h12]
      split
      · rename_i name q _
        by_cases e1 : endsWith aaddr (ascii "_ipp._tcp.local") = true
        · simp only [if_pos e1]; exact ⟨true, [], _, _, _, _, fun st => rfl⟩
        · simp only [if_neg e1]
          by_cases e2 : endsWith aaddr (ascii "_ipps._tcp.local") = true
          · simp only [if_pos e2]; exact ⟨true, [], _, _, _, _, fun st => rfl⟩
          · simp only [if_neg e2]; exact ⟨true, [], _, _, _, _, fun st => rfl⟩
      · exact ⟨false, [], _, _, _, _, fun st => rfl⟩
    · simp only [if_neg h12]
      by_cases h16 : atype = 16
      · simp only [if_pos h16]
        obtain ⟨b, es, p', h⟩ := readTxts_effs msg aaddr (p + len) i j t msg.length p
        exact ⟨b, es, i, j, t, p', h⟩
      · simp only [if_neg h16]
        by_cases h33 : atype = 33
        · simp only [if_pos h33]
          split
          · rename_i port target q _
            exact ⟨true, [.srv aaddr port target], _, _, _, _, fun st => rfl⟩
          · exact ⟨false, [], _, _, _, _, fun st => rfl⟩
        · simp only [if_neg h33]
          by_cases h1 : atype = 1
          · simp only [if_pos h1]
            split
            · rename_i ip q _
              exact ⟨true, [.addr aaddr (ip4str ip)], _, _, _, _, fun st => rfl⟩
            · exact ⟨false, [], _, _, _, _, fun st => rfl⟩
          · simp only [if_neg h1]
            exact ⟨true, [], _, _, _, _, fun st => rfl⟩
  · exact ⟨false, [], _, _, _, _, fun st => rfl⟩

theorem readRecords_effs (msg : Bytes) : ∀ (n : Nat) (i j t : List Bytes) (pos : Nat), ∃ (es : List Eff) (i' j' t' : List Bytes) (p : Nat),
    ∀ st, readRecords msg n ⟨st, i, j, t, pos⟩ = ⟨es.foldl Eff.apply st, i', j', t', p⟩ := by
  intro n
  induction n with
  | zero => intro i j t pos; exact ⟨[], i, j, t, pos, fun st => rfl⟩
  | succ n ih =>
    intro i j t pos
    obtain ⟨b, es, i', j', t', p, h⟩ := readRecord_effs msg i j t pos
    unfold readRecords
    simp only [h]
    cases b with
    | false => exact ⟨es, i', j', t', p, fun st => rfl⟩
    | true =>
      obtain ⟨es', i2, j2, t2, p2, h'⟩ := ih i' j' t' p
      exact ⟨es ++ es', i2, j2, t2, p2, fun st => by rw [List.foldl_append]; exact h' _⟩

theorem readResponse_effs (msg : Bytes) : ∃ (es : List Eff) (i j t : List Bytes) (p : Nat), ∀ st, readResponse msg st = ⟨es.foldl Eff.apply st, i, j, t, p⟩ := by
  unfold readResponse
  simp only
  split
  · rename_i total p _
    exact readRecords_effs msg total [] [] [] p
  · exact ⟨[], [], [], [], 12, fun st => rfl⟩

/-- What each record sets to a value or leaves, reading sets to a value or leaves. -/
theorem effs_either {β : Sort u} (f : St → β) (hf : ∀ e : Eff, (∃ c, ∀ st, f (e.apply st) = c) ∨ ∀ st, f (e.apply st) = f st) : ∀ es : List Eff,
    (∃ c, ∀ st, f (es.foldl Eff.apply st) = c) ∨ ∀ st, f (es.foldl Eff.apply st) = f st := by
  intro es
  induction es with
  | nil => exact .inr fun st => rfl
  | cons e es ih =>
    simp only [List.foldl_cons]
    rcases ih with ⟨c, h⟩ | h
    · exact .inl ⟨c, fun st => h _⟩
    · rcases hf e with ⟨c, h'⟩ | h'
      · exact .inl ⟨c, fun st => (h _).trans (h' st)⟩
      · exact .inr fun st => (h _).trans (h' st)

/-- so that reading it again changes nothing of that. -/
theorem effs_again {β : Sort u} (f : St → β) (hf : ∀ e : Eff, (∃ c, ∀ st, f (e.apply st) = c) ∨ ∀ st, f (e.apply st) = f st) (es : List Eff) {s s' : St}
    (h : f s' = f (es.foldl Eff.apply s)) : f (es.foldl Eff.apply s') = f s' := by
  rcases effs_either f hf es with ⟨c, h'⟩ | h'
  · rw [h' s', h, h' s]
  · exact h' s'

theorem effs_ptrs (es : List Eff) (s : St) : (es.foldl Eff.apply s).ippPtrs = s.ippPtrs ∧ (es.foldl Eff.apply s).ippsPtrs = s.ippsPtrs := by
  induction es generalizing s with
  | nil => exact ⟨rfl, rfl⟩
  | cons e es ih =>
    have := ih (e.apply s)
    cases e <;> exact this

theorem effs_kept (es : List Eff) {s s' : St} (h : SameKnown (es.foldl Eff.apply s) s') : Remains s' (es.foldl Eff.apply s') := by
  refine ⟨(effs_ptrs es s').1, (effs_ptrs es s').2, fun n => ?_, fun n => ?_, fun n => ?_, fun n key => ?_, fun n ip => ?_⟩
  · refine effs_again (s := s) (fun st => st.ports.get? n) (fun e => ?_) es (by simp only [h.ports])
    cases e with
    | txt a k v => exact .inr fun st => rfl
    | addr a ip => exact .inr fun st => rfl
    | srv a port t =>
      by_cases e : n = a
      · exact .inl ⟨some port, fun st => by simp only [Eff.apply, KMap.get?_assign_any, if_pos e]⟩
      · exact .inr fun st => by simp only [Eff.apply, KMap.get?_assign_any, if_neg e]
  · refine effs_again (s := s) (fun st => st.targets.get? n) (fun e => ?_) es (by simp only [h.targets])
    cases e with
    | txt a k v => exact .inr fun st => rfl
    | addr a ip => exact .inr fun st => rfl
    | srv a port t =>
      by_cases e : n = a
      · exact .inl ⟨some t, fun st => by simp only [Eff.apply, KMap.get?_assign_any, if_pos e]⟩
      · exact .inr fun st => by simp only [Eff.apply, KMap.get?_assign_any, if_neg e]
  · refine effs_again (s := s) (fun st => st.txts.has n) (fun e => ?_) es (by simp only [h.txts])
    cases e with
    | srv a port t => exact .inr fun st => rfl
    | addr a ip => exact .inr fun st => rfl
    | txt a k v =>
      by_cases e : n = a
      · exact .inl ⟨true, fun st => by simp only [Eff.apply, KMap.has, KMap.get?_assign_any, if_pos e, Option.isSome_some]⟩
      · exact .inr fun st => by simp only [Eff.apply, KMap.has, KMap.get?_assign_any, if_neg e]
  · refine effs_again (s := s) (fun st => valueOf st n key) (fun e => ?_) es (by simp only [valueOf, h.txts])
    cases e with
    | srv a port t => exact .inr fun st => rfl
    | addr a ip => exact .inr fun st => rfl
    | txt a k v =>
      by_cases e : n = a
      · by_cases e' : key = k
        · exact .inl ⟨some v, fun st => by simp only [valueOf, Eff.apply, KMap.get?_assign_any, if_pos e, if_pos e', Option.bind_some]⟩
        · refine .inr fun st => ?_
          simp only [valueOf, Eff.apply, KMap.get?_assign_any, if_pos e, if_neg e', Option.bind_some]
          rw [e]
          cases st.txts.get? a <;> rfl
      · exact .inr fun st => by simp only [valueOf, Eff.apply, KMap.get?_assign_any, if_neg e]
  · refine Iff.of_eq (effs_again (s := s) (fun st => ip ∈ ipsOf st n) (fun e => ?_) es (by simp only [ipsOf, h.as]))
    cases e with
    | srv a port t => exact .inr fun st => rfl
    | txt a k v => exact .inr fun st => rfl
    | addr a ip' =>
      by_cases e : n = a
      · by_cases e' : ip = ip'
        · exact .inl ⟨True, fun st => by simp [ipsOf, Eff.apply, KMap.get?_assign_any, e, e']⟩
        · exact .inr fun st => by simp [ipsOf, Eff.apply, KMap.get?_assign_any, e, e']
      · exact .inr fun st => by simp only [ipsOf, Eff.apply, KMap.get?_assign_any, if_neg e]

/-! ## Reporting -/

theorem Remains.of_known {s s' : St} (h : SameKnown s s') (h1 : s'.ippPtrs = s.ippPtrs) (h2 : s'.ippsPtrs = s.ippsPtrs) : Remains s s' :=
  ⟨h1, h2, fun n => by rw [h.ports], fun n => by rw [h.targets], fun n => by rw [h.txts], fun n k => by unfold valueOf; rw [h.txts], fun n ip => by unfold ipsOf; rw [h.as]⟩

theorem resolve_iff {s : St} {it : Bytes} {port : Nat} {rp ip : Bytes} : (∃ ips, resolve s it = some (port, ips, rp) ∧ ip ∈ ips) ↔
    ∃ target, s.targets.get? it = some target ∧ s.ports.get? it = some port ∧ valueOf s it (ascii "rp") = some rp ∧ ip ∈ ipsOf s target := by
  unfold resolve valueOf ipsOf
  constructor
  · rintro ⟨ips, h, hi⟩
    split at h
    · rename_i target port' txt h1 h2 h3
      split at h
      · rename_i rp' ips' h4 h5
        cases h
        exact ⟨target, h1, h2, by rw [h3]; exact h4, by rw [h5]; exact hi⟩
      · cases h
    · cases h
  · rintro ⟨target, h1, h2, h3, h4⟩
    cases ht : s.txts.get? it with
    | none => rw [ht] at h3; cases h3
    | some txt =>
      rw [ht] at h3
      simp only [Option.bind_some] at h3
      cases ha : s.as.get? target with
      | none => rw [ha] at h4; cases h4
      | some ips =>
        rw [ha] at h4
        refine ⟨ips, ?_, h4⟩
        rw [h1, h2]
        simp only [h3, ha]

theorem Remains.resolve {s s' : St} (h : Remains s s') {it : Bytes} {port : Nat} {rp ip : Bytes} :
    (∃ ips, resolve s' it = some (port, ips, rp) ∧ ip ∈ ips) ↔ ∃ ips, Discovery.resolve s it = some (port, ips, rp) ∧ ip ∈ ips := by
  rw [resolve_iff, resolve_iff]
  simp only [h.targets, h.ports, h.values, h.addresses]

theorem reportIpps_still (port : Nat) (rp : Bytes) : ∀ (ips : List Bytes) (p : St × List (Bytes × Bytes)), (∀ ip ∈ ips, makeIppsAddr port ip rp ∈ p.1.found) → reportIpps port rp ips p = p := by
  intro ips
  induction ips with
  | nil => intro p _; rfl
  | cons ip ips ih =>
    intro p h
    unfold reportIpps
    rw [if_pos (h ip List.mem_cons_self)]
    exact ih p fun x hx => h x (List.mem_cons_of_mem _ hx)

theorem updateIpps_still : ∀ (its : List Bytes) (p : St × List (Bytes × Bytes)),
    (∀ it ∈ its, ∀ port ips rp, resolve p.1 it = some (port, ips, rp) → ∀ ip ∈ ips, makeIppsAddr port ip rp ∈ p.1.found) → updateIpps its p = p := by
  intro its
  induction its with
  | nil => intro p _; rfl
  | cons it its ih =>
    intro p h
    have h' := ih p fun x hx => h x (List.mem_cons_of_mem _ hx)
    unfold updateIpps
    split
    · rename_i port ips rp hr
      rw [reportIpps_still port rp ips p (h it List.mem_cons_self port ips rp hr)]
      exact h'
    · exact h'

theorem reportIpp_still (port : Nat) (rp : Bytes) (secure : List (Bytes × Bytes)) : ∀ (ips : List Bytes) (s : St), (∀ ip ∈ ips, makeIppAddr port ip rp ∈ s.found) →
    reportIpp port rp secure ips s = s := by
  intro ips
  induction ips with
  | nil => intro p _; rfl
  | cons ip ips ih =>
    intro s h
    unfold reportIpp
    rw [if_pos (.inl (h ip List.mem_cons_self))]
    exact ih s fun x hx => h x (List.mem_cons_of_mem _ hx)

theorem updateIpp_still (secure : List (Bytes × Bytes)) : ∀ (its : List Bytes) (s : St),
    (∀ it ∈ its, ∀ port ips rp, resolve s it = some (port, ips, rp) → ∀ ip ∈ ips, makeIppAddr port ip rp ∈ s.found) → updateIpp secure its s = s := by
  intro its
  induction its with
  | nil => intro p _; rfl
  | cons it its ih =>
    intro p h
    have h' := ih p fun x hx => h x (List.mem_cons_of_mem _ hx)
    unfold updateIpp
    split
    · rename_i port ips rp hr
      rw [reportIpp_still port rp secure ips p (h it List.mem_cons_self port ips rp hr)]
      exact h'
    · exact h'

/-- All secure addresses have been found. -/
def Secured (s : St) : Prop := ∀ it ∈ s.ippsPtrs, ∀ port ips rp, resolve s it = some (port, ips, rp) → ∀ ip ∈ ips, makeIppsAddr port ip rp ∈ s.found

/-- All open addresses have been found. -/
def Opened (s : St) : Prop := ∀ it ∈ s.ippPtrs, ∀ port ips rp, resolve s it = some (port, ips, rp) → ∀ ip ∈ ips, makeIppAddr port ip rp ∈ s.found

theorem Secured.kept {s s' : St} (h : Secured s) (hk : Remains s s') (hf : s'.found = s.found) : Secured s' := by
  intro it hit port ips rp hr ip hip
  obtain ⟨ips', hr', hip'⟩ := hk.resolve.mp ⟨ips, hr, hip⟩
  rw [hf]
  exact h it (by rw [← hk.ipps]; exact hit) port ips' rp hr' ip hip'

theorem Opened.kept {s s' : St} (h : Opened s) (hk : Remains s s') (hf : s'.found = s.found) : Opened s' := by
  intro it hit port ips rp hr ip hip
  obtain ⟨ips', hr', hip'⟩ := hk.resolve.mp ⟨ips, hr, hip⟩
  rw [hf]
  exact h it (by rw [← hk.ipp]; exact hit) port ips' rp hr' ip hip'

theorem update_secured (s : St) : Secured (update s) := by
  intro it hit port ips rp hr ip hip
  rw [(update_same s).resolve] at hr
  exact (update_full s hr hip).1 (by rw [← (update_same s).2.1]; exact hit)

theorem update_again {s : St} (h : Secured s) : update s = updateIpp [] s.ippPtrs s := by
  unfold update
  rw [updateIpps_still s.ippsPtrs (s, []) h]

theorem update_opened {s : St} (h : Secured s) : Opened (update s) := by
  intro it hit port ips rp hr ip hip
  rw [(update_same s).resolve] at hr
  rw [update_again h]
  exact (updateIpp_found [] s.ippPtrs s).2 it (by rw [← (update_same s).1]; exact hit) port ips rp hr ip hip (by simp)

theorem update_settled {s : St} (h : Secured s) (h' : Opened s) : update s = s := by
  rw [update_again h, updateIpp_still [] s.ippPtrs s h']

theorem update_prefix (s : St) : s.reported <+: (update s).reported :=
  update_ind (P := fun t => s.reported <+: t.reported) (fun _ _ _ h => h.trans (List.prefix_append _ _)) s (List.prefix_refl _)

/-! ## Receiving -/

theorem ptrs_known {ask : Nat → List Bytes → St → Outcome St} {get : St → List Bytes} {put : List Bytes → St → St} : ∀ (l : List Bytes) (s : St), (∀ p ∈ l, p ∈ get s) →
    updateAndQueryPtrs ask get put l s = .ok s := by
  intro l
  induction l with
  | nil => intro s _; rfl
  | cons p l ih =>
    intro s h
    unfold updateAndQueryPtrs
    rw [if_pos (h p List.mem_cons_self)]
    exact ih s fun x hx => h x (List.mem_cons_of_mem _ hx)

/-- The first time -/
theorem first_time {clock : Nat → Nat} {es : List Eff} {i j t : List Bytes} {p : Nat} {s s' : St} (h : afterReading (sendQuery clock) ⟨es.foldl Eff.apply s, i, j, t, p⟩ = .ok s') :
    ∃ s3, s' = update s3 ∧ SameKnown (es.foldl Eff.apply s) s3 ∧ (∀ p ∈ i, p ∈ s3.ippPtrs) ∧ (∀ p ∈ j, p ∈ s3.ippsPtrs) := by
  have hf : ∀ q a s s', sendQuery clock q a s = .ok s' → AskFacts s s' q a := fun q a s s' h => by rw [sendQuery_ok h]; exact meant_facts clock q a s
  unfold afterReading at h
  simp only [Outcome.bind_eq_ok] at h
  obtain ⟨s1, h1, s2, h2, hs⟩ := h
  have f1 := ptr_facts (get := (·.ippsPtrs)) (other := (·.ippPtrs)) (put := fun l s => { s with ippsPtrs := l }) (fun q a s s' h => ⟨hf q a s s' h, (hf q a s s' h).ipps, (hf q a s s' h).ipp⟩)
    (fun l s => ⟨⟨rfl, rfl, rfl, rfl, rfl, rfl⟩, rfl, rfl, rfl, rfl⟩) _ _ _ h1
  have f2 := ptr_facts (get := (·.ippPtrs)) (other := (·.ippsPtrs)) (put := fun l s => { s with ippPtrs := l }) (fun q a s s' h => ⟨hf q a s s' h, (hf q a s s' h).ipp, (hf q a s s' h).ipps⟩)
    (fun l s => ⟨⟨rfl, rfl, rfl, rfl, rfl, rfl⟩, rfl, rfl, rfl, rfl⟩) _ _ _ h2
  have k2 : SameKnown (es.foldl Eff.apply s) s2 := f1.same.trans f2.same
  have m1 : ∀ p ∈ i, p ∈ s2.ippPtrs := fun p hp => (f2.mem p).mpr (.inr hp)
  have m2 : ∀ p ∈ j, p ∈ s2.ippsPtrs := fun p hp => by
    have : s2.ippsPtrs = s1.ippsPtrs := f2.other
    rw [this]; exact (f1.mem p).mpr (.inr hp)
  split at hs
  · cases hs; exact ⟨s2, rfl, k2, m1, m2⟩
  · obtain ⟨s3, h4, h5⟩ := Outcome.bind_eq_ok.1 hs
    cases h5
    have f := hf _ _ _ _ h4
    exact ⟨s3, rfl, k2.trans f.same, by rw [f.ipp]; exact m1, by rw [f.ipps]; exact m2⟩

/-- Further times -/
theorem next_time {clock : Nat → Nat} {es : List Eff} {i j t : List Bytes} {p : Nat} {s s' : St} (hi : ∀ p ∈ i, p ∈ s.ippPtrs) (hj : ∀ p ∈ j, p ∈ s.ippsPtrs)
    (h : afterReading (sendQuery clock) ⟨es.foldl Eff.apply s, i, j, t, p⟩ = .ok s') :
    ∃ s3, s' = update s3 ∧ SameKnown (es.foldl Eff.apply s) s3 ∧ s3.ippPtrs = s.ippPtrs ∧ s3.ippsPtrs = s.ippsPtrs ∧
      (s3.sent = (es.foldl Eff.apply s).sent ∨ ∃ Q : Query, s3.sent = (es.foldl Eff.apply s).sent ++ [Q] ∧ Q.qtype = 1 ∧ ∀ n ∈ Q.names, s3.as.get? n = none) := by
  obtain ⟨e1, e2⟩ := effs_ptrs es s
  unfold afterReading at h
  rw [ptrs_known j _ (by simp only [e2]; exact hj)] at h
  simp only [Outcome.bind_ok] at h
  rw [ptrs_known i _ (by simp only [e1]; exact hi)] at h
  simp only [Outcome.bind_ok] at h
  split at h
  · cases h; exact ⟨_, rfl, ⟨rfl, rfl, rfl, rfl, rfl, rfl⟩, e1, e2, .inl rfl⟩
  · obtain ⟨s3, h4, h5⟩ := Outcome.bind_eq_ok.1 h
    cases h5
    have f := meant_facts clock 1 (t.filter (fun t => !(es.foldl Eff.apply s).as.has t)) (es.foldl Eff.apply s)
    rw [← sendQuery_ok h4] at f
    refine ⟨s3, rfl, f.same, f.ipp.trans e1, f.ipps.trans e2, ?_⟩
    have h6 := sendQuery_ok h4
    unfold sendQueryMeant at h6
    simp only at h6
    split at h6
    · left; rw [h6]
    · right
      refine ⟨_, by rw [h6], rfl, fun n hn => ?_⟩
      have hn' := (List.mem_filter.mp (List.mem_filter.mp hn).1).2
      rw [f.same.as]
      simpa [KMap.has] using hn'

theorem receive_append {ask : Nat → List Bytes → St → Outcome St} (l' : List Bytes) : ∀ (l : List Bytes) (s : St), receive ask (l ++ l') s = (receive ask l s) >>= receive ask l' := by
  intro l
  induction l with
  | nil => intro s; rfl
  | cons m l ih =>
    intro s
    simp only [List.cons_append, receive]
    cases afterReading ask (readResponse m s) with
    | ok s' => simp only [Outcome.bind_ok]; exact ih s'
    | throws e => rfl
    | ub => rfl
    | hang => rfl

theorem discover_append {ask : Nat → List Bytes → St → Outcome St} {l l' : List Bytes} {s : St} (h : discover ask (l ++ l') = .ok s) : ∃ s0, discover ask l = .ok s0 ∧ receive ask l' s0 = .ok s := by
  unfold discover at h ⊢
  simp only [Outcome.bind_eq_ok] at h ⊢
  obtain ⟨s1, h1, h2⟩ := h
  rw [receive_append] at h2
  obtain ⟨s0, h3, h4⟩ := Outcome.bind_eq_ok.1 h2
  exact ⟨s0, ⟨s1, h1, h3⟩, h4⟩

theorem receive_one {ask : Nat → List Bytes → St → Outcome St} {m : Bytes} {s s' : St} (h : receive ask [m] s = .ok s') : afterReading ask (readResponse m s) = .ok s' := by
  unfold receive at h
  obtain ⟨s1, h1, h2⟩ := Outcome.bind_eq_ok.1 h
  cases h2
  exact h1

/-- After the datagram `m`: its pointers are known, and reading it again changes nothing. -/
structure After (es : List Eff) (i j : List Bytes) (s : St) : Prop where
  ipp : ∀ p ∈ i, p ∈ s.ippPtrs
  ipps : ∀ p ∈ j, p ∈ s.ippsPtrs
  known : ∃ s0, s.txts = (es.foldl Eff.apply s0).txts ∧ s.ports = (es.foldl Eff.apply s0).ports ∧ s.targets = (es.foldl Eff.apply s0).targets ∧ s.as = (es.foldl Eff.apply s0).as
  secured : Secured s

theorem After.kept {es : List Eff} {i j : List Bytes} {s : St} (h : After es i j s) : Remains s (es.foldl Eff.apply s) := by
  obtain ⟨s0, h1, h2, h3, h4⟩ := h.known
  have := effs_kept es (s := { s0 with found := s.found, reported := s.reported }) (s' := s)
  have e : ∀ (es : List Eff) (a : St) (f r : List Bytes), es.foldl Eff.apply { a with found := f, reported := r } = { es.foldl Eff.apply a with found := f, reported := r } := by
    intro es
    induction es with
    | nil => intro a f r; rfl
    | cons e es ih =>
      intro a f r
      simp only [List.foldl_cons]
      rw [← ih]
      cases e <;> rfl
  rw [e] at this
  exact this ⟨h1, h2, h3, h4, rfl, rfl⟩

theorem after_first {clock : Nat → Nat} {es : List Eff} {i j t : List Bytes} {p : Nat} {s s' : St} (h : afterReading (sendQuery clock) ⟨es.foldl Eff.apply s, i, j, t, p⟩ = .ok s') :
    After es i j s' := by
  obtain ⟨s3, rfl, hk, hi, hj⟩ := first_time h
  obtain ⟨u1, u2, u3, u4, u5, u6, -⟩ := update_same s3
  exact ⟨by rw [u1]; exact hi, by rw [u2]; exact hj, ⟨s, by rw [u3, hk.txts], by rw [u4, hk.ports], by rw [u5, hk.targets], by rw [u6, hk.as]⟩, update_secured s3⟩

/-- Once more -/
theorem after_next {clock : Nat → Nat} {es : List Eff} {i j t : List Bytes} {p : Nat} {s s' : St} (ha : After es i j s)
    (h : afterReading (sendQuery clock) ⟨es.foldl Eff.apply s, i, j, t, p⟩ = .ok s') :
    ∃ s3, s' = update s3 ∧ Remains s s3 ∧ s3.found = s.found ∧ s3.reported = s.reported ∧ Remains s s' ∧ Secured s3 ∧
      (s'.sent = s.sent ∨ ∃ Q : Query, s'.sent = s.sent ++ [Q] ∧ Q.qtype = 1 ∧ ∀ n ∈ Q.names, s'.as.get? n = none) := by
  obtain ⟨s3, rfl, hk, h1, h2, h3⟩ := next_time ha.ipp ha.ipps h
  have out : ∀ (es : List Eff) (s : St), (es.foldl Eff.apply s).found = s.found ∧ (es.foldl Eff.apply s).reported = s.reported ∧ (es.foldl Eff.apply s).sent = s.sent := by
    intro es
    induction es with
    | nil => intro s; exact ⟨rfl, rfl, rfl⟩
    | cons e es ih => intro s; have := ih (e.apply s); cases e <;> exact this
  have e := effs_ptrs es s
  have k3 : Remains s s3 := ha.kept.trans (.of_known hk (h1.trans e.1.symm) (h2.trans e.2.symm))
  have ef : s3.found = s.found := hk.found.trans (out es s).1
  obtain ⟨u1, u2, u3, u4, u5, u6, -, u8, -⟩ := update_same s3
  refine ⟨s3, rfl, k3, ef, hk.reported.trans (out es s).2.1, k3.trans ⟨u1, u2, fun n => by rw [u4], fun n => by rw [u5], fun n => by rw [u3], fun n k => by unfold valueOf; rw [u3],
    fun n ip => by unfold ipsOf; rw [u6]⟩, ha.secured.kept k3 ef, ?_⟩
  rw [u6, u8, ← (out es s).2.2]
  exact h3

/-! ## The claims -/

/-- **C124.** Whatever the datagram is and whatever came before: when it arrives again right after, what is known remains. At most one query is sent, for the addresses of hosts of which
none is known yet. Addresses are reported only if they had been held back: they are `ipp` addresses of printers that have been reported with `ipps`. -/
theorem C124_again_partial {clock : Nat → Nat} {msgs : List Bytes} {m : Bytes} {s s' : St} (h : discover (sendQuery clock) (msgs ++ [m]) = .ok s)
    (h' : discover (sendQuery clock) (msgs ++ [m, m]) = .ok s') : Remains s s' ∧
    (s'.sent = s.sent ∨ ∃ Q : Query, s'.sent = s.sent ++ [Q] ∧ Q.qtype = 1 ∧ ∀ n ∈ Q.names, ipsOf s' n = []) ∧
    ∃ new, s'.reported = s.reported ++ new ∧ ∀ a ∈ new, ∃ port port' ip path, a = ippUri port ip path ∧ ippsUri port' ip path ∈ s.reported := by
  have h0 : discover (sendQuery clock) ((msgs ++ [m]) ++ [m]) = .ok s' := by rw [List.append_assoc]; exact h'
  obtain ⟨s0, d0, d1⟩ := discover_append h
  obtain ⟨s1, d2, d3⟩ := discover_append h0
  rw [h] at d2
  cases d2
  have once := once_meant (fun _ _ _ _ h => sendQuery_ok h) h
  have once' := (once_meant (fun _ _ _ _ h => sendQuery_ok h) h').2
  obtain ⟨es, i, j, t, p, hr⟩ := readResponse_effs m
  have d1 := receive_one d1
  have d3 := receive_one d3
  rw [hr] at d1 d3
  obtain ⟨s3, rfl, k3, ef, er, k', sec, hq⟩ := after_next (after_first d1) d3
  refine ⟨k', ?_, ?_⟩
  · rcases hq with hq | ⟨Q, q1, q2, q3⟩
    · exact .inl hq
    · exact .inr ⟨Q, q1, q2, fun n hn => by unfold ipsOf; rw [q3 n hn]; rfl⟩
  · obtain ⟨new, hn⟩ := update_prefix s3
    rw [er] at hn
    refine ⟨new, hn.symm, fun a ha => ?_⟩
    have hm : a ∈ (update s3).reported := by rw [← hn]; exact List.mem_append_right _ ha
    have hnot : a ∉ s.reported := fun hs => by
      rw [← hn] at once'
      exact (List.nodup_append.mp once').2.2 a hs a ha rfl
    rcases update_sound s3 a hm with h1 | ⟨it, port, ips, rp, ip, hres, hip, h1 | h1⟩
    · rw [er] at h1; exact absurd h1 hnot
    · refine absurd ?_ hnot
      rw [once.1, ← ef, h1.2]
      exact sec it h1.1 port ips rp hres ip hip
    · obtain ⟨ips', hres', hip'⟩ := k3.resolve.mp ⟨ips, hres, hip⟩
      obtain ⟨s4, e4, -⟩ := first_time d1
      have hs4 : (update s4).found = s.found := by rw [e4]
      rw [e4, (update_same s4).resolve] at hres'
      have hit : it ∈ s4.ippPtrs := by rw [← (update_same s4).1, ← e4, ← k3.ipp]; exact h1.1
      rcases (update_full s4 hres' hip').2 hit with h2 | ⟨port', h2⟩
      · rw [hs4, ← once.1, ← h1.2] at h2; exact absurd h2 hnot
      · rw [hs4, ← once.1, makeIppsAddr_eq] at h2
        exact ⟨port, port', ip, rp, by rw [h1.2, makeIppAddr_eq], h2⟩

/-- **C124, from the third time on** nothing is reported. -/
theorem C124_settled {clock : Nat → Nat} {msgs : List Bytes} {m : Bytes} {s : St} (h : discover (sendQuery clock) (msgs ++ [m, m]) = .ok s) :
    ∀ (n : Nat) {s' : St}, discover (sendQuery clock) (msgs ++ [m, m] ++ List.replicate n m) = .ok s' → Remains s s' ∧ s'.reported = s.reported := by
  have h0 : discover (sendQuery clock) ((msgs ++ [m]) ++ [m]) = .ok s := by rw [List.append_assoc]; exact h
  obtain ⟨s1, d0, d1⟩ := discover_append h0
  obtain ⟨s0, d2, d3⟩ := discover_append d0
  obtain ⟨es, i, j, t, p, hr⟩ := readResponse_effs m
  have d1 := receive_one d1
  have d3 := receive_one d3
  rw [hr] at d1 d3
  obtain ⟨s3, rfl, -, -, -, -, sec, -⟩ := after_next (after_first d3) d1
  have key : ∀ (n : Nat) (s2 s' : St), After es i j s2 → Opened s2 → receive (sendQuery clock) (List.replicate n m) s2 = .ok s' → Remains s2 s' ∧ s'.reported = s2.reported := by
    intro n
    induction n with
    | zero => intro s2 s' _ _ h; cases h; exact ⟨⟨rfl, rfl, fun _ => rfl, fun _ => rfl, fun _ => rfl, fun _ _ => rfl, fun _ _ => .rfl⟩, rfl⟩
    | succ n ih =>
      intro s2 s' ha ho h
      rw [List.replicate_succ, receive, hr] at h
      obtain ⟨s4, h4, h5⟩ := Outcome.bind_eq_ok.1 h
      obtain ⟨s5, e5, k5, f5, r5, k4, sec5, -⟩ := after_next ha h4
      have o5 := ho.kept k5 f5
      rw [update_settled sec5 o5] at e5
      subst e5
      obtain ⟨g1, g2⟩ := ih s4 s' (after_first h4) o5 h5
      exact ⟨k4.trans g1, g2.trans r5⟩
  intro n s' h'
  obtain ⟨s2, d4, d5⟩ := discover_append h'
  rw [h] at d4
  cases d4
  exact key n _ s' (after_first d1) (update_opened sec) d5

/-- A printer that announces itself for both services in one datagram -/
def both : Bytes := response (announce "_ipps" 443 ++ announce "_ipp" 631)

/-- The hypotheses of both theorems are met, for whatever copies: a discovery with a clock that stands still is defined. -/
example : ∀ msgs, ∃ s, discover (sendQuery fun _ => 0) msgs = .ok s := C53_short_partial (fun _ _ _ => Nat.le_refl _) (fun _ => Nat.zero_le _)

/-- What the datagram brings: one address, the first time -/
example : reportsOf [both] = [ascii "ipps://10.0.0.7/a/b"] := by decide +kernel

/-- **C124 is false of the code** in that a datagram that arrives again brings an address that it did not bring before: the open address of a printer that has been reported already. -/
theorem C124_false : ¬ ∀ (m : Bytes) (s s' : St), discover (sendQuery fun _ => 0) [m] = .ok s → discover (sendQuery fun _ => 0) [m, m] = .ok s' → s'.reported = s.reported := by
  intro h
  have h1 : reportsOf [both] = [ascii "ipps://10.0.0.7/a/b"] := by decide +kernel
  have h2 : reportsOf [both, both] = [ascii "ipps://10.0.0.7/a/b", ascii "ipp://10.0.0.7/a/b"] := by decide +kernel
  have ok := C53_short_partial (clock := fun _ => 0) (fun _ _ _ => Nat.le_refl _) (fun _ => Nat.zero_le _)
  obtain ⟨s, hs⟩ := ok [both]
  obtain ⟨s', hs'⟩ := ok [both, both]
  have := h both s s' hs hs'
  unfold reportsOf at h1 h2
  rw [hs] at h1
  rw [hs'] at h2
  simp only at h1 h2
  rw [h1, h2] at this
  exact absurd this (by decide +kernel)

/-- The number of addresses that are kept for a host grows by the same number with each reading. -/
theorem effs_count (n : Bytes) (es : List Eff) : ∃ c, ∀ st, (ipsOf (es.foldl Eff.apply st) n).length = (ipsOf st n).length + c := by
  induction es with
  | nil => exact ⟨0, fun st => rfl⟩
  | cons e es ih =>
    obtain ⟨c, h⟩ := ih
    simp only [List.foldl_cons]
    cases e with
    | txt a k v => exact ⟨c, fun st => h _⟩
    | srv a port t => exact ⟨c, fun st => h _⟩
    | addr a ip =>
      by_cases e : n = a
      · refine ⟨c + 1, fun st => ?_⟩
        rw [h]
        have : (ipsOf (Eff.apply st (.addr a ip)) n).length = (ipsOf st n).length + 1 := by
          unfold ipsOf Eff.apply
          simp only [KMap.get?_assign_any, if_pos e, Option.getD_some, List.length_append, List.length_singleton]
          rw [e]
        omega
      · refine ⟨c, fun st => ?_⟩
        rw [h]
        have : ipsOf (Eff.apply st (.addr a ip)) n = ipsOf st n := by
          unfold ipsOf Eff.apply
          simp only [KMap.get?_assign_any, if_neg e]
        rw [this]

/-- **C124, the memory.** Although nothing new is known, what is stored grows without bound: for each copy of a response that tells of one printer with one address, the list of addresses
of its host gets one entry more. -/
theorem C124_grows_false : ∃ (m : Bytes) (rs : List Record) (host : Bytes), Response m rs ∧ addresses rs host = [ascii "10.0.0.9"] ∧
    ∀ n, ∃ s, discover (sendQuery fun _ => 0) (List.replicate n m) = .ok s ∧ (ipsOf s host).length = n := by
  refine ⟨exampleResponse, exampleRecords, ascii "h.local", example_response, by decide +kernel, fun n => ?_⟩
  obtain ⟨s, hs⟩ := C53_short_partial (clock := fun _ => 0) (fun _ _ _ => Nat.le_refl _) (fun _ => Nat.zero_le _) (List.replicate n exampleResponse)
  refine ⟨s, hs, ?_⟩
  obtain ⟨es, i, j, t, p, hr⟩ := readResponse_effs exampleResponse
  obtain ⟨c, hc⟩ := effs_count (ascii "h.local") es
  have c1 : c = 1 := by
    have h1 := hc start
    have h2 : (ipsOf (readResponse exampleResponse start).st (ascii "h.local")).length = 1 := by decide +kernel
    rw [hr] at h2
    simp only at h2
    have h3 : (ipsOf start (ascii "h.local")).length = 0 := rfl
    omega
  have key : ∀ (n : Nat) (s s' : St), receive (sendQuery fun _ => 0) (List.replicate n exampleResponse) s = .ok s' →
      (ipsOf s' (ascii "h.local")).length = (ipsOf s (ascii "h.local")).length + n := by
    intro n
    induction n with
    | zero => intro s s' h; cases h; rfl
    | succ n ih =>
      intro s s' h
      rw [List.replicate_succ, receive, hr] at h
      obtain ⟨s4, h4, h5⟩ := Outcome.bind_eq_ok.1 h
      obtain ⟨s3, rfl, hk, -⟩ := first_time h4
      have e1 := ih _ _ h5
      have e2 : ipsOf (update s3) (ascii "h.local") = ipsOf (es.foldl Eff.apply s) (ascii "h.local") := by
        unfold ipsOf
        rw [(update_same s3).2.2.2.2.2.1, hk.as]
      have e3 := hc s
      rw [e2] at e1
      omega
  unfold discover at hs
  obtain ⟨s0, h0, h1⟩ := Outcome.bind_eq_ok.1 hs
  have e := key n s0 s h1
  have e0 : ipsOf s0 (ascii "h.local") = [] := by
    rw [sendQuery_ok h0]
    unfold ipsOf
    rw [(meant_facts _ _ _ _).same.as]
    rfl
  rw [e, e0]
  simp

end Verif.Discovery
