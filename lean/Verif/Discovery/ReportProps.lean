import Verif.Discovery.Model

/-! # What a discovery reports, and when it asks -/

namespace Verif.Discovery

/-- `sendQuery` with the ageing as it is meant. -/
def asMeant (clock : Nat → Nat) (qtype : Nat) (addrs : List Bytes) (s : St) : Outcome St := .ok (sendQueryMeant clock qtype addrs s)

/-! ## How the parts of `discover` change the state -/

/-- What reading a datagram leaves as it was. -/
def SameOut (s s' : St) : Prop := s'.found = s.found ∧ s'.reported = s.reported ∧ s'.outstanding = s.outstanding ∧ s'.sent = s.sent ∧
  s'.calls = s.calls ∧ s'.transactionId = s.transactionId

theorem SameOut.refl (s : St) : SameOut s s := ⟨rfl, rfl, rfl, rfl, rfl, rfl⟩

theorem SameOut.trans {a b c : St} (h : SameOut a b) (h' : SameOut b c) : SameOut a c := by
  obtain ⟨h1, h2, h3, h4, h5, h6⟩ := h
  obtain ⟨g1, g2, g3, g4, g5, g6⟩ := h'
  exact ⟨g1.trans h1, g2.trans h2, g3.trans h3, g4.trans h4, g5.trans h5, g6.trans h6⟩

theorem readTxts_same (msg aaddr : Bytes) (stop : Nat) : ∀ (fuel : Nat) (r : Reading), SameOut r.st (readTxts msg aaddr stop fuel r).2.st := by
  intro fuel
  induction fuel with
  | zero => intro r; exact .refl _
  | succ fuel ih =>
    intro r
    unfold readTxts
    split
    · split
      · exact SameOut.trans ⟨rfl, rfl, rfl, rfl, rfl, rfl⟩ (ih _)
      · exact .refl _
    · exact .refl _

theorem readRecord_same (msg : Bytes) (r : Reading) : SameOut r.st (readRecord msg r).2.st := by
  unfold readRecord
  simp only
  repeat' split
  all_goals first
    | exact ⟨rfl, rfl, rfl, rfl, rfl, rfl⟩
    | exact readTxts_same _ _ _ _ _

theorem readRecords_same (msg : Bytes) : ∀ (n : Nat) (r : Reading), SameOut r.st (readRecords msg n r).st := by
  intro n
  induction n with
  | zero => intro r; exact .refl _
  | succ n ih =>
    intro r
    unfold readRecords
    have h := readRecord_same msg r
    split
    · rename_i r' hr; rw [hr] at h; exact h.trans (ih r')
    · rename_i r' hr; rw [hr] at h; exact h

theorem readResponse_same (msg : Bytes) (s : St) : SameOut s (readResponse msg s).st := by
  unfold readResponse
  simp only
  split
  · exact readRecords_same _ _ _
  · exact .refl _

/-- A property that the pointers do not matter for and that asking keeps is kept until `update`. -/
theorem afterReading_ind {ask : Nat → List Bytes → St → Outcome St} {P : St → Prop} (hptrs : ∀ s l l', P s → P { s with ippPtrs := l, ippsPtrs := l' })
    (hask : ∀ q a s s', ask q a s = .ok s' → P s → P s') {r : Reading} {s' : St} (h : afterReading ask r = .ok s') (hp : P r.st) :
    ∃ s, P s ∧ s' = update s := by
  have ptrs : ∀ (get : St → List Bytes) (put : List Bytes → St → St), (∀ l s, P s → P (put l s)) → ∀ (l : List Bytes) (s s' : St),
      updateAndQueryPtrs ask get put l s = .ok s' → P s → P s' := by
    intro get put hput l
    induction l with
    | nil => intro s s' h hp; cases h; exact hp
    | cons ptr l ih =>
      intro s s' h hp
      unfold updateAndQueryPtrs at h
      split at h
      · exact ih _ _ h hp
      · have p1 := hput (get s ++ [ptr]) s hp
        have rest : ∀ s2, P s2 → (if s2.targets.has ptr ∧ s2.ports.has ptr then updateAndQueryPtrs ask get put l s2
            else (ask 33 [ptr] s2).bind (updateAndQueryPtrs ask get put l)) = .ok s' → P s' := by
          intro s2 p2 h
          split at h
          · exact ih _ _ h p2
          · obtain ⟨s3, h3, h4⟩ := Outcome.bind_eq_ok.1 h
            exact ih _ _ h4 (hask _ _ _ _ h3 p2)
        simp only at h
        split at h
        · exact rest _ p1 h
        · obtain ⟨s2, h2, h3⟩ := Outcome.bind_eq_ok.1 h
          exact rest _ (hask _ _ _ _ h2 p1) h3
  unfold afterReading at h
  simp only [Outcome.bind_eq_ok] at h
  obtain ⟨s1, h1, s2, h2, h3⟩ := h
  have p1 := ptrs _ _ (fun l s hp => hptrs s s.ippPtrs l hp) _ _ _ h1 hp
  have p2 := ptrs _ _ (fun l s hp => hptrs s l s.ippsPtrs hp) _ _ _ h2 p1
  split at h3
  · cases h3; exact ⟨_, p2, rfl⟩
  · obtain ⟨s3, h4, h5⟩ := Outcome.bind_eq_ok.1 h3
    cases h5
    exact ⟨_, hask _ _ _ _ h4 p2, rfl⟩

/-- A property that reading, asking and reporting keep holds at the end of a discovery. -/
theorem discover_ind' {ask : Nat → List Bytes → St → Outcome St} {P : St → Prop} (hstart : P start)
    (hread : ∀ msg s, P s → P (readResponse msg s).st) (hptrs : ∀ s l l', P s → P { s with ippPtrs := l, ippsPtrs := l' })
    (hask : ∀ q a s s', ask q a s = .ok s' → P s → P s') (hupdate : ∀ s, P s → P (update s))
    {msgs : List Bytes} {s : St} (h : discover ask msgs = .ok s) : P s := by
  have recv : ∀ msgs s s', receive ask msgs s = .ok s' → P s → P s' := by
    intro msgs
    induction msgs with
    | nil => intro s s' h hp; cases h; exact hp
    | cons m ms ih =>
      intro s s' h hp
      unfold receive at h
      simp only [Outcome.bind_eq_ok] at h
      obtain ⟨s1, h1, h2⟩ := h
      obtain ⟨s3, p3, rfl⟩ := afterReading_ind hptrs hask h1 (hread m s hp)
      exact ih _ _ h2 (hupdate _ p3)
  unfold discover at h
  simp only [Outcome.bind_eq_ok] at h
  obtain ⟨s0, h0, h1⟩ := h
  exact recv _ _ _ h1 (hask _ _ _ _ h0 hstart)

theorem discover_ind {ask : Nat → List Bytes → St → Outcome St} {P : St → Prop} (hstart : P start)
    (hframe : ∀ s s', SameOut s s' → P s → P s') (hask : ∀ q a s s', ask q a s = .ok s' → P s → P s')
    (hupdate : ∀ s, P s → P (update s)) {msgs : List Bytes} {s : St} (h : discover ask msgs = .ok s) : P s :=
  discover_ind' hstart (fun msg s => hframe _ _ (readResponse_same msg s)) (fun _ _ _ => hframe _ _ ⟨rfl, rfl, rfl, rfl, rfl, rfl⟩) hask hupdate h

theorem sendQuery_ok {clock : Nat → Nat} {q : Nat} {a : List Bytes} {s s' : St} (h : sendQuery clock q a s = .ok s') :
    s' = sendQueryMeant clock q a s := by
  unfold sendQuery at h
  split at h
  · cases h
  · cases h; rfl

/-! ## Reports -/

/-- What `update` leaves as it was. -/
def SameIn (s s' : St) : Prop := s'.ippPtrs = s.ippPtrs ∧ s'.ippsPtrs = s.ippsPtrs ∧ s'.txts = s.txts ∧ s'.ports = s.ports ∧ s'.targets = s.targets ∧
  s'.as = s.as ∧ s'.outstanding = s.outstanding ∧ s'.sent = s.sent ∧ s'.calls = s.calls ∧ s'.transactionId = s.transactionId

theorem SameIn.refl (s : St) : SameIn s s := ⟨rfl, rfl, rfl, rfl, rfl, rfl, rfl, rfl, rfl, rfl⟩

theorem SameIn.trans {a b c : St} (h : SameIn a b) (h' : SameIn b c) : SameIn a c := by
  obtain ⟨h1, h2, h3, h4, h5, h6, h7, h8, h9, h10⟩ := h
  obtain ⟨g1, g2, g3, g4, g5, g6, g7, g8, g9, g10⟩ := h'
  exact ⟨g1.trans h1, g2.trans h2, g3.trans h3, g4.trans h4, g5.trans h5, g6.trans h6, g7.trans h7, g8.trans h8, g9.trans h9, g10.trans h10⟩

theorem SameIn.report (a : Bytes) (s : St) : SameIn s (report a s) := ⟨rfl, rfl, rfl, rfl, rfl, rfl, rfl, rfl, rfl, rfl⟩

theorem SameIn.resolve {s s' : St} (h : SameIn s s') (it : Bytes) : resolve s' it = resolve s it := by
  obtain ⟨h1, h2, h3, h4, h5, h6, _⟩ := h
  unfold Discovery.resolve; rw [h3, h4, h5, h6]

theorem reportIpps_same (port : Nat) (rp : Bytes) : ∀ (ips : List Bytes) (p : St × List (Bytes × Bytes)), SameIn p.1 (reportIpps port rp ips p).1 := by
  intro ips
  induction ips with
  | nil => intro p; exact .refl _
  | cons ip ips ih =>
    intro p
    unfold reportIpps
    split
    · exact ih _
    · exact (SameIn.report _ _).trans (ih (report _ p.1, _))

theorem reportIpp_same (port : Nat) (rp : Bytes) (secure : List (Bytes × Bytes)) : ∀ (ips : List Bytes) (s : St),
    SameIn s (reportIpp port rp secure ips s) := by
  intro ips
  induction ips with
  | nil => intro p; exact .refl _
  | cons ip ips ih =>
    intro p
    unfold reportIpp
    split
    · exact ih _
    · exact (SameIn.report _ _).trans (ih _)

theorem updateIpps_same : ∀ (its : List Bytes) (p : St × List (Bytes × Bytes)), SameIn p.1 (updateIpps its p).1 := by
  intro its
  induction its with
  | nil => intro p; exact .refl _
  | cons it its ih =>
    intro p
    unfold updateIpps
    split
    · exact (reportIpps_same _ _ _ _).trans (ih _)
    · exact ih _

theorem updateIpp_same (secure : List (Bytes × Bytes)) : ∀ (its : List Bytes) (s : St), SameIn s (updateIpp secure its s) := by
  intro its
  induction its with
  | nil => intro p; exact .refl _
  | cons it its ih =>
    intro p
    unfold updateIpp
    split
    · exact (reportIpp_same _ _ _ _ _).trans (ih _)
    · exact ih _

theorem update_same (s : St) : SameIn s (update s) := (updateIpps_same _ (s, [])).trans (updateIpp_same _ _ _)

/-- A property of states that every report of something new keeps is kept by `update`. -/
theorem update_ind {P : St → Prop} (hr : ∀ a s, a ∉ s.found → P s → P (report a s)) (s : St) (h : P s) : P (update s) := by
  have h1 : ∀ (port : Nat) (rp : Bytes) (ips : List Bytes) (p : St × List (Bytes × Bytes)), P p.1 → P (reportIpps port rp ips p).1 := by
    intro port rp ips
    induction ips with
    | nil => intro p h; exact h
    | cons ip ips ih =>
      intro p h
      unfold reportIpps
      split
      · exact ih _ h
      · rename_i hn; exact ih _ (hr _ _ hn h)
  have h2 : ∀ (port : Nat) (rp : Bytes) (secure : List (Bytes × Bytes)) (ips : List Bytes) (s : St), P s → P (reportIpp port rp secure ips s) := by
    intro port rp secure ips
    induction ips with
    | nil => intro p h; exact h
    | cons ip ips ih =>
      intro p h
      unfold reportIpp
      split
      · exact ih _ h
      · rename_i hn; exact ih _ (hr _ _ (fun hm => hn (.inl hm)) h)
  have h3 : ∀ (its : List Bytes) (p : St × List (Bytes × Bytes)), P p.1 → P (updateIpps its p).1 := by
    intro its
    induction its with
    | nil => intro p h; exact h
    | cons it its ih =>
      intro p h
      unfold updateIpps
      split
      · exact ih _ (h1 _ _ _ _ h)
      · exact ih _ h
  have h4 : ∀ (secure : List (Bytes × Bytes)) (its : List Bytes) (s : St), P s → P (updateIpp secure its s) := by
    intro secure its
    induction its with
    | nil => intro p h; exact h
    | cons it its ih =>
      intro p h
      unfold updateIpp
      split
      · exact ih _ (h2 _ _ _ _ _ h)
      · exact ih _ h
  exact h4 _ _ _ (h3 _ (s, []) h)

theorem meant_reports (clock : Nat → Nat) (q : Nat) (a : List Bytes) (s : St) : (sendQueryMeant clock q a s).found = s.found ∧
    (sendQueryMeant clock q a s).reported = s.reported := by
  unfold sendQueryMeant; simp only; split <;> exact ⟨rfl, rfl⟩

theorem once_meant {clock : Nat → Nat} {msgs : List Bytes} {s : St} {ask : Nat → List Bytes → St → Outcome St}
    (hask : ∀ q a s s', ask q a s = .ok s' → s' = sendQueryMeant clock q a s)
    (h : discover ask msgs = .ok s) : s.reported = s.found ∧ s.reported.Nodup := by
  refine discover_ind (P := fun s => s.reported = s.found ∧ s.reported.Nodup) ⟨rfl, List.nodup_nil⟩ ?_ ?_ ?_ h
  · rintro s s' ⟨h1, h2, -⟩ hp; simp only [h1, h2]; exact hp
  · intro q a s s' h hp
    rw [hask _ _ _ _ h]
    simp only [(meant_reports clock q a s).1, (meant_reports clock q a s).2]; exact hp
  · intro s hp
    refine update_ind (P := fun s => s.reported = s.found ∧ s.reported.Nodup) ?_ s hp
    rintro a s hn ⟨h1, h2⟩
    refine ⟨by simp [report, h1], ?_⟩
    simp only [report]
    rw [List.nodup_append]
    refine ⟨h2, by simp, ?_⟩
    intro x hx y hy
    rw [List.mem_singleton.1 hy]
    rintro rfl
    rw [h1] at hx; exact hn hx

/-- **C43.** Whatever datagrams arrive, in whatever order and at whatever times: no address is reported twice. -/
theorem C43_once {clock : Nat → Nat} {msgs : List Bytes} {s : St} (h : discover (sendQuery clock) msgs = .ok s) : s.reported.Nodup :=
  (once_meant (fun _ _ _ _ h => sendQuery_ok h) h).2

/-- **C43.** The same when old queries are aged out as it is meant (where the program's behaviour is undefined). -/
theorem C43_once_meant {clock : Nat → Nat} {msgs : List Bytes} {s : St} (h : discover (asMeant clock) msgs = .ok s) : s.reported.Nodup :=
  (once_meant (clock := clock) (fun _ _ _ _ h => by cases h; rfl) h).2

/-! ## Everything that is known is reported -/

theorem reportIpps_found (port : Nat) (rp : Bytes) : ∀ (ips : List Bytes) (p : St × List (Bytes × Bytes)),
    (∀ a ∈ p.1.found, a ∈ (reportIpps port rp ips p).1.found) ∧ (∀ ip ∈ ips, makeIppsAddr port ip rp ∈ (reportIpps port rp ips p).1.found) := by
  intro ips
  induction ips with
  | nil => intro p; exact ⟨fun a h => h, nofun⟩
  | cons ip ips ih =>
    intro p
    unfold reportIpps
    split
    · rename_i hm
      refine ⟨(ih p).1, fun x hx => ?_⟩
      rcases List.mem_cons.1 hx with rfl | hx
      · exact (ih p).1 _ hm
      · exact (ih p).2 x hx
    · have := ih (report (makeIppsAddr port ip rp) p.1, p.2 ++ [(ip, rp)])
      refine ⟨fun a ha => this.1 a (by simp [report, ha]), fun x hx => ?_⟩
      rcases List.mem_cons.1 hx with rfl | hx
      · exact this.1 _ (by simp [report])
      · exact this.2 x hx

theorem updateIpps_found : ∀ (its : List Bytes) (p : St × List (Bytes × Bytes)),
    (∀ a ∈ p.1.found, a ∈ (updateIpps its p).1.found) ∧
    (∀ it ∈ its, ∀ port ips rp, resolve p.1 it = some (port, ips, rp) → ∀ ip ∈ ips, makeIppsAddr port ip rp ∈ (updateIpps its p).1.found) := by
  intro its
  induction its with
  | nil => intro p; exact ⟨fun a h => h, nofun⟩
  | cons it its ih =>
    intro p
    unfold updateIpps
    cases hres : resolve p.1 it with
    | none =>
      simp only
      refine ⟨(ih p).1, fun x hx port ips rp hr ip hip => ?_⟩
      rcases List.mem_cons.1 hx with rfl | hx
      · rw [hres] at hr; cases hr
      · exact (ih p).2 x hx port ips rp hr ip hip
    | some t =>
      obtain ⟨port, ips, rp⟩ := t
      simp only
      have h1 := reportIpps_found port rp ips p
      have h2 := ih (reportIpps port rp ips p)
      refine ⟨fun a ha => h2.1 a (h1.1 a ha), fun x hx port' ips' rp' hr ip hip => ?_⟩
      rcases List.mem_cons.1 hx with rfl | hx
      · rw [hres] at hr; cases hr
        exact h2.1 _ (h1.2 ip hip)
      · exact h2.2 x hx port' ips' rp' (by rw [(reportIpps_same port rp ips p).resolve]; exact hr) ip hip

theorem reportIpp_found (port : Nat) (rp : Bytes) (secure : List (Bytes × Bytes)) : ∀ (ips : List Bytes) (s : St),
    (∀ a ∈ s.found, a ∈ (reportIpp port rp secure ips s).found) ∧
    (∀ ip ∈ ips, (ip, rp) ∉ secure → makeIppAddr port ip rp ∈ (reportIpp port rp secure ips s).found) := by
  intro ips
  induction ips with
  | nil => intro p; exact ⟨fun a h => h, nofun⟩
  | cons ip ips ih =>
    intro s
    unfold reportIpp
    split
    · rename_i hm
      refine ⟨(ih s).1, fun x hx hs => ?_⟩
      rcases List.mem_cons.1 hx with rfl | hx
      · exact (ih s).1 _ (hm.resolve_right hs)
      · exact (ih s).2 x hx hs
    · have := ih (report (makeIppAddr port ip rp) s)
      refine ⟨fun a ha => this.1 a (by simp [report, ha]), fun x hx hs => ?_⟩
      rcases List.mem_cons.1 hx with rfl | hx
      · exact this.1 _ (by simp [report])
      · exact this.2 x hx hs

theorem updateIpp_found (secure : List (Bytes × Bytes)) : ∀ (its : List Bytes) (s : St),
    (∀ a ∈ s.found, a ∈ (updateIpp secure its s).found) ∧
    (∀ it ∈ its, ∀ port ips rp, resolve s it = some (port, ips, rp) → ∀ ip ∈ ips, (ip, rp) ∉ secure →
      makeIppAddr port ip rp ∈ (updateIpp secure its s).found) := by
  intro its
  induction its with
  | nil => intro p; exact ⟨fun a h => h, nofun⟩
  | cons it its ih =>
    intro s
    unfold updateIpp
    cases hres : resolve s it with
    | none =>
      simp only
      refine ⟨(ih s).1, fun x hx port ips rp hr ip hip hs => ?_⟩
      rcases List.mem_cons.1 hx with rfl | hx
      · rw [hres] at hr; cases hr
      · exact (ih s).2 x hx port ips rp hr ip hip hs
    | some t =>
      obtain ⟨port, ips, rp⟩ := t
      simp only
      have h1 := reportIpp_found port rp secure ips s
      have h2 := ih (reportIpp port rp secure ips s)
      refine ⟨fun a ha => h2.1 a (h1.1 a ha), fun x hx port' ips' rp' hr ip hip hs => ?_⟩
      rcases List.mem_cons.1 hx with rfl | hx
      · rw [hres] at hr; cases hr
        exact h2.1 _ (h1.2 ip hip hs)
      · exact h2.2 x hx port' ips' rp' (by rw [(reportIpp_same port rp secure ips s).resolve]; exact hr) ip hip hs

/-- `ippsIpRps` holds what was newly reported. -/
theorem secure_new {t : St} (its : List Bytes) (p : St × List (Bytes × Bytes))
    (h : ∀ ip rp, (ip, rp) ∈ p.2 → ∃ port, makeIppsAddr port ip rp ∈ p.1.found ∧ makeIppsAddr port ip rp ∉ t.found)
    (hm : ∀ a ∈ t.found, a ∈ p.1.found) :
    ∀ ip rp, (ip, rp) ∈ (updateIpps its p).2 → ∃ port, makeIppsAddr port ip rp ∈ (updateIpps its p).1.found ∧ makeIppsAddr port ip rp ∉ t.found := by
  have one : ∀ (port : Nat) (r : Bytes) (ips : List Bytes) (p : St × List (Bytes × Bytes)), (∀ a ∈ t.found, a ∈ p.1.found) →
      (∀ ip rp, (ip, rp) ∈ p.2 → ∃ port, makeIppsAddr port ip rp ∈ p.1.found ∧ makeIppsAddr port ip rp ∉ t.found) →
      ∀ ip rp, (ip, rp) ∈ (reportIpps port r ips p).2 → ∃ port', makeIppsAddr port' ip rp ∈ (reportIpps port r ips p).1.found ∧
        makeIppsAddr port' ip rp ∉ t.found := by
    intro port r ips
    induction ips with
    | nil => intro p _ h; exact h
    | cons i ips ih =>
      intro p hm h
      unfold reportIpps
      split
      · exact ih p hm h
      · rename_i hn
        refine ih _ (fun a ha => by simp [report, hm a ha]) ?_
        intro ip rp hmem
        rcases List.mem_append.1 hmem with hmem | hmem
        · obtain ⟨q, h1, h2⟩ := h ip rp hmem
          exact ⟨q, by simp [report, h1], h2⟩
        · cases List.mem_singleton.1 hmem
          exact ⟨port, by simp [report], fun ha => hn (hm _ ha)⟩
  induction its generalizing p with
  | nil => exact h
  | cons it its ih =>
    unfold updateIpps
    split
    · rename_i port ips rp hr
      refine ih _ (one port rp ips p hm h) (fun a ha => (reportIpps_found port rp ips p).1 a (hm a ha))
    · exact ih p h hm

theorem meant_same (clock : Nat → Nat) (q : Nat) (a : List Bytes) (s : St) : (sendQueryMeant clock q a s).reported = s.reported ∧
    (sendQueryMeant clock q a s).found = s.found ∧ (sendQueryMeant clock q a s).as = s.as ∧ (sendQueryMeant clock q a s).ippPtrs = s.ippPtrs ∧
    (sendQueryMeant clock q a s).ippsPtrs = s.ippsPtrs ∧ (∀ it, resolve (sendQueryMeant clock q a s) it = resolve s it) := by
  unfold sendQueryMeant; simp only; split <;> exact ⟨rfl, rfl, rfl, rfl, rfl, fun _ => rfl⟩

/-- After every datagram, every printer of which all is known (where it is: SRV and A records; its path: a TXT record with rp) has been reported:
with `ipps` for each of its addresses when it was announced for `ipps`, and with `ipp` when it was announced for `ipp`, unless this datagram made it
known under `ipps` with the same address and path. -/
theorem complete_resolve {clock : Nat → Nat} {msgs : List Bytes} {msg : Bytes} {s s' : St} (h : discover (sendQuery clock) msgs = .ok s)
    (h' : receive (sendQuery clock) [msg] s = .ok s') {it : Bytes} {port : Nat} {ips : List Bytes} {rp ip : Bytes}
    (hr : resolve s' it = some (port, ips, rp)) (hip : ip ∈ ips) :
    (it ∈ s'.ippsPtrs → makeIppsAddr port ip rp ∈ s'.reported) ∧
    (it ∈ s'.ippPtrs → makeIppAddr port ip rp ∈ s'.reported ∨ ∃ port', makeIppsAddr port' ip rp ∈ s'.reported ∧ makeIppsAddr port' ip rp ∉ s.reported) := by
  have h0 := once_meant (fun _ _ _ _ h => sendQuery_ok h) h
  have hall : discover (sendQuery clock) (msgs ++ [msg]) = .ok s' := by
    have split : ∀ (l : List Bytes) (t : St), receive (sendQuery clock) (l ++ [msg]) t = (receive (sendQuery clock) l t) >>= receive (sendQuery clock) [msg] := by
      intro l
      induction l with
      | nil => intro t; rfl
      | cons m l ih =>
        intro t
        simp only [List.cons_append, receive]
        cases afterReading (sendQuery clock) (readResponse m t) with
        | ok t' => simp only [Outcome.bind_ok]; exact ih t'
        | throws e => rfl
        | ub => rfl
        | hang => rfl
    unfold discover at h ⊢
    cases hq : sendQuery clock 12 [ascii "_ipp._tcp.local", ascii "_ipps._tcp.local"] start with
    | ok t => rw [hq] at h; simp only [Outcome.bind_ok] at h ⊢; rw [split, h]; exact h'
    | throws e => rw [hq] at h; cases h
    | ub => rw [hq] at h; cases h
    | hang => rw [hq] at h; cases h
  have h1 := once_meant (fun _ _ _ _ h => sendQuery_ok h) hall
  unfold receive at h'
  simp only [Outcome.bind_eq_ok] at h'
  obtain ⟨s1, h2, h3⟩ := h'
  cases h3
  obtain ⟨s3, p3, rfl⟩ := afterReading_ind (P := fun t => t.found = s.found) (fun _ _ _ h => h)
    (fun q a t t' ht hp => by rw [sendQuery_ok ht, (meant_reports clock q a t).1]; exact hp) h2 ((readResponse_same msg s).1)
  have hsame := update_same s3
  rw [hsame.resolve] at hr
  rw [h1.1]
  have e1 := updateIpps_found s3.ippsPtrs (s3, [])
  have e2 := updateIpp_found (updateIpps s3.ippsPtrs (s3, [])).2 s3.ippPtrs (updateIpps s3.ippsPtrs (s3, [])).1
  refine ⟨fun hit => ?_, fun hit => ?_⟩
  · rw [hsame.2.1] at hit
    exact e2.1 _ (e1.2 it hit port ips rp hr ip hip)
  · rw [hsame.1] at hit
    by_cases hs : (ip, rp) ∈ (updateIpps s3.ippsPtrs (s3, [])).2
    · right
      obtain ⟨port', hp1, hp2⟩ := secure_new s3.ippsPtrs (s3, []) (t := s3) (fun _ _ h => by cases h) (fun _ h => h) _ _ hs
      rw [p3, ← h0.1] at hp2
      exact ⟨port', e2.1 _ hp1, hp2⟩
    · left
      exact e2.2 it hit port ips rp (by rw [(updateIpps_same s3.ippsPtrs (s3, [])).resolve]; exact hr) ip hip hs

end Verif.Discovery
