import Verif.Discovery.Lines
import Verif.Discovery.Again

/-!
# Exactly what is reported after a datagram (C44, C59)

`C44_partial` and `C59_complete` each have one half of it; together with where a reported address comes from, they say exactly what the next datagram brings.
-/

namespace Verif.Discovery

open Verif.Discovery.Spec

/-- Where a reported address comes from: a pointer of which all is known -/
def Src (s : St) (a : Bytes) : Prop :=
  (∃ it port ips rp ip, it ∈ s.ippsPtrs ∧ resolve s it = some (port, ips, rp) ∧ ip ∈ ips ∧ a = makeIppsAddr port ip rp) ∨
  (∃ it port ips rp ip, it ∈ s.ippPtrs ∧ resolve s it = some (port, ips, rp) ∧ ip ∈ ips ∧ a = makeIppAddr port ip rp)

theorem reportIpps_src {P : Bytes → Prop} (port : Nat) (rp : Bytes) : ∀ (ips : List Bytes) (p : St × List (Bytes × Bytes)), (∀ ip ∈ ips, P (makeIppsAddr port ip rp)) →
    (∀ a ∈ p.1.reported, P a) → ∀ a ∈ (reportIpps port rp ips p).1.reported, P a := by
  intro ips
  induction ips with
  | nil => intro p _ h; exact h
  | cons ip ips ih =>
    intro p hp h
    have hp' : ∀ ip ∈ ips, P (makeIppsAddr port ip rp) := fun i hi => hp i (List.mem_cons_of_mem _ hi)
    unfold reportIpps
    split
    · exact ih p hp' h
    · refine ih _ hp' fun a ha => ?_
      rcases List.mem_append.1 ha with ha | ha
      · exact h a ha
      · rw [List.mem_singleton.1 ha]; exact hp ip List.mem_cons_self

theorem reportIpp_src {P : Bytes → Prop} (port : Nat) (rp : Bytes) (secure : List (Bytes × Bytes)) : ∀ (ips : List Bytes) (s : St), (∀ ip ∈ ips, P (makeIppAddr port ip rp)) →
    (∀ a ∈ s.reported, P a) → ∀ a ∈ (reportIpp port rp secure ips s).reported, P a := by
  intro ips
  induction ips with
  | nil => intro p _ h; exact h
  | cons ip ips ih =>
    intro s hp h
    have hp' : ∀ ip ∈ ips, P (makeIppAddr port ip rp) := fun i hi => hp i (List.mem_cons_of_mem _ hi)
    unfold reportIpp
    split
    · exact ih s hp' h
    · refine ih _ hp' fun a ha => ?_
      rcases List.mem_append.1 ha with ha | ha
      · exact h a ha
      · rw [List.mem_singleton.1 ha]; exact hp ip List.mem_cons_self

theorem updateIpps_src {s : St} {P : Bytes → Prop} : ∀ (its : List Bytes) (p : St × List (Bytes × Bytes)), SameIn s p.1 →
    (∀ it ∈ its, ∀ port ips rp, resolve s it = some (port, ips, rp) → ∀ ip ∈ ips, P (makeIppsAddr port ip rp)) →
    (∀ a ∈ p.1.reported, P a) → ∀ a ∈ (updateIpps its p).1.reported, P a := by
  intro its
  induction its with
  | nil => intro p _ _ h; exact h
  | cons it its ih =>
    intro p hsame hp h
    have hp' := fun i hi => hp i (List.mem_cons_of_mem it hi)
    unfold updateIpps
    split
    · rename_i port ips rp hr
      rw [hsame.resolve] at hr
      exact ih _ (hsame.trans (reportIpps_same _ _ _ _)) hp' (reportIpps_src port rp ips p (hp it List.mem_cons_self port ips rp hr) h)
    · exact ih p hsame hp' h

theorem updateIpp_src {s : St} {P : Bytes → Prop} (secure : List (Bytes × Bytes)) : ∀ (its : List Bytes) (s' : St), SameIn s s' →
    (∀ it ∈ its, ∀ port ips rp, resolve s it = some (port, ips, rp) → ∀ ip ∈ ips, P (makeIppAddr port ip rp)) →
    (∀ a ∈ s'.reported, P a) → ∀ a ∈ (updateIpp secure its s').reported, P a := by
  intro its
  induction its with
  | nil => intro p _ _ h; exact h
  | cons it its ih =>
    intro s' hsame hp h
    have hp' := fun i hi => hp i (List.mem_cons_of_mem it hi)
    unfold updateIpp
    split
    · rename_i port ips rp hr
      rw [hsame.resolve] at hr
      exact ih _ (hsame.trans (reportIpp_same _ _ _ _ _)) hp' (reportIpp_src port rp secure ips s' (hp it List.mem_cons_self port ips rp hr) h)
    · exact ih _ hsame hp' h

/-- What an update reports was reported before, or comes from a pointer. -/
theorem update_src (s : St) : ∀ a ∈ (update s).reported, a ∈ s.reported ∨ Src s a := by
  refine updateIpp_src (s := s) _ _ _ (updateIpps_same s.ippsPtrs (s, [])) ?_ (updateIpps_src (s := s) _ _ (.refl _) ?_ fun a ha => .inl ha)
  · exact fun it hit port ips rp hr ip hip => .inr (.inr ⟨it, port, ips, rp, ip, hit, hr, hip, rfl⟩)
  · exact fun it hit port ips rp hr ip hip => .inr (.inl ⟨it, port, ips, rp, ip, hit, hr, hip, rfl⟩)

theorem Src.same {s s' : St} (h : SameIn s s') {a : Bytes} (ha : Src s a) : Src s' a := by
  rcases ha with ⟨it, port, ips, rp, ip, h1, h2, h3, h4⟩ | ⟨it, port, ips, rp, ip, h1, h2, h3, h4⟩
  · exact .inl ⟨it, port, ips, rp, ip, by rw [h.2.1]; exact h1, by rw [h.resolve]; exact h2, h3, h4⟩
  · exact .inr ⟨it, port, ips, rp, ip, by rw [h.1]; exact h1, by rw [h.resolve]; exact h2, h3, h4⟩

theorem receive_src {clock : Nat → Nat} {msg : Bytes} {s s' : St} (h' : receive (sendQuery clock) [msg] s = .ok s') : ∀ a ∈ s'.reported, a ∈ s.reported ∨ Src s' a := by
  unfold receive at h'
  simp only [Outcome.bind_eq_ok] at h'
  obtain ⟨s1, h2, h3⟩ := h'
  cases h3
  obtain ⟨s3, p3, rfl⟩ := afterReading_ind (P := fun t => t.reported = s.reported) (fun _ _ _ h => h)
    (fun q a t t' ht hp => by rw [sendQuery_ok ht, (meant_same clock q a t).1]; exact hp) h2 ((readResponse_same msg s).2.1)
  intro a ha
  rcases update_src s3 a ha with h | h
  · exact .inl (p3 ▸ h)
  · exact .inr (h.same (update_same s3))

theorem resolve_known {s : St} {it : Bytes} {port : Nat} {ips : List Bytes} {rp ip : Bytes} (hr : resolve s it = some (port, ips, rp)) (hip : ip ∈ ips) : Known s it port ip rp := by
  unfold resolve at hr
  split at hr
  · rename_i h1 h2 h3
    split at hr
    · rename_i h4 h5
      cases hr
      exact ⟨h2, ⟨_, h3, h4⟩, _, _, h1, h5, hip⟩
    · cases hr
  · cases hr

theorem known_resolve {s : St} {it : Bytes} {port : Nat} {rp ip : Bytes} (h : Known s it port ip rp) : ∃ ips, resolve s it = some (port, ips, rp) ∧ ip ∈ ips := by
  obtain ⟨h1, ⟨txt, h2, h3⟩, host, ips, h4, h5, h6⟩ := h
  exact ⟨ips, by simp [resolve, h1, h2, h3, h4, h5], h6⟩

/-- **C44, exactly.** What the next datagram makes the program report, after any others: the `ipps` addresses of all printers of which all is known then, and their `ipp` addresses unless the
same address and path are reported with `ipps` because of this datagram; all of these that were not reported before, and nothing else. -/
theorem C44_exact_partial {clock : Nat → Nat} {msgs : List Bytes} {msg : Bytes} {s s' : St} (h : discover (sendQuery clock) msgs = .ok s)
    (h' : receive (sendQuery clock) [msg] s = .ok s') : ∃ new, s'.reported = s.reported ++ new ∧ ∀ a, a ∈ new ↔ a ∉ s.reported ∧
      ((∃ it port ip path, it ∈ s'.ippsPtrs ∧ Known s' it port ip path ∧ a = ippsUri port ip path) ∨
       (∃ it port ip path, it ∈ s'.ippPtrs ∧ Known s' it port ip path ∧ a = ippUri port ip path ∧ ∀ port', ippsUri port' ip path ∉ new)) := by
  obtain ⟨new, hnew, hsec⟩ := secure_only h h'
  have hall : discover (sendQuery clock) (msgs ++ [msg]) = .ok s' := by
    unfold discover at h ⊢
    rw [Outcome.bind_eq_ok] at h ⊢
    obtain ⟨t, h1, h2⟩ := h
    exact ⟨t, h1, by rw [receive_append, Outcome.bind_eq_ok]; exact ⟨s, h2, h'⟩⟩
  have hnd : s'.reported.Nodup := C43_once hall
  have hquad : AsQuad s' := (discover_formed hall).1
  have hdis : ∀ a ∈ new, a ∉ s.reported := by
    intro a ha hs
    rw [hnew] at hnd
    exact (List.nodup_append.1 hnd).2.2 a hs a ha rfl
  have hin : ∀ a, a ∈ s'.reported → a ∉ s.reported → a ∈ new := by
    intro a ha hs
    rw [hnew] at ha
    exact (List.mem_append.1 ha).resolve_left hs
  refine ⟨new, hnew, fun a => ⟨fun ha => ⟨hdis a ha, ?_⟩, ?_⟩⟩
  · have hr : a ∈ s'.reported := by rw [hnew]; exact List.mem_append_right _ ha
    rcases (receive_src h' a hr).resolve_left (hdis a ha) with ⟨it, port, ips, rp, ip, h1, h2, h3, h4⟩ | ⟨it, port, ips, rp, ip, h1, h2, h3, h4⟩
    · exact .inl ⟨it, port, ip, rp, h1, resolve_known h2 h3, by rw [h4, makeIppsAddr_eq]⟩
    · refine .inr ⟨it, port, ip, rp, h1, resolve_known h2 h3, by rw [h4, makeIppAddr_eq], fun port' hp => ?_⟩
      obtain ⟨n, rfl⟩ := resolve_quad hquad h2 ip h3
      rw [← makeIppsAddr_eq] at hp
      exact hsec n rp port' port hp (h4 ▸ ha)
  · rintro ⟨hs, ⟨it, port, ip, path, h1, h2, rfl⟩ | ⟨it, port, ip, path, h1, h2, rfl, h3⟩⟩
    · exact hin _ ((C59_complete h h' h2).1 h1) hs
    · rcases (C59_complete h h' h2).2 h1 with hr | ⟨port', h4, h5⟩
      · exact hin _ hr hs
      · exact absurd (hin _ h4 h5) (h3 port')

/-- What the datagram brings: the hypotheses hold, and both kinds of address occur (the second datagram tells of the open service, and of nothing else). -/
example : ∃ s s', discover (sendQuery (fun _ => 0)) [response (announce "_ipps" 443)] = .ok s ∧ receive (sendQuery (fun _ => 0)) [response (announce "_ipp" 631)] s = .ok s' ∧
    s.reported = [ascii "ipps://10.0.0.7/a/b"] ∧ s'.reported = [ascii "ipps://10.0.0.7/a/b", ascii "ipp://10.0.0.7/a/b"] := by
  have h1 : reportsOf [response (announce "_ipps" 443)] = [ascii "ipps://10.0.0.7/a/b"] := by decide +kernel
  have h2 : reportsOf [response (announce "_ipps" 443), response (announce "_ipp" 631)] = [ascii "ipps://10.0.0.7/a/b", ascii "ipp://10.0.0.7/a/b"] := by decide +kernel
  unfold reportsOf at h1 h2
  split at h2
  · rename_i s' hs'
    obtain ⟨s, hs, hr⟩ := discover_append (l := [response (announce "_ipps" 443)]) (l' := [response (announce "_ipp" 631)]) hs'
    rw [hs] at h1
    exact ⟨s, s', hs, hr, h1, h2⟩
  · cases h2

end Verif.Discovery
