import Verif.Discovery.ReportProps

/-! # Secure addresses first -/

namespace Verif.Discovery

/-! ## The parts of an address -/

/-- Contains neither a colon nor a slash. -/
def Plain (ip : Bytes) : Prop := 58 ∉ ip ∧ 47 ∉ ip

theorem decimal_digits (n : Nat) : ∀ b ∈ decimal n, 48 ≤ b ∧ b ≤ 57 := by
  intro b hb
  unfold decimal ascii at hb
  obtain ⟨c, hc, rfl⟩ := List.mem_map.1 hb
  have hd : c.isDigit := Nat.isDigit_of_mem_toDigits (b := 10) (n := n) (by decide) (by decide) (by
    have : (toString n).toList = Nat.toDigits 10 n := by simp [toString, Nat.repr]
    rw [← this]; exact hc)
  simp only [Char.isDigit, Bool.and_eq_true, decide_eq_true_eq] at hd
  have h1 : 48 ≤ c.toNat := hd.1
  have h2 : c.toNat ≤ 57 := hd.2
  refine ⟨UInt8.le_iff_toNat_le.2 ?_, UInt8.le_iff_toNat_le.2 ?_⟩
  · rw [UInt8.toNat_ofNat_of_lt' (by show c.toNat < 256; omega)]; exact h1
  · rw [UInt8.toNat_ofNat_of_lt' (by show c.toNat < 256; omega)]; exact h2

theorem decimal_plain (n : Nat) : Plain (decimal n) :=
  ⟨fun h => absurd (decimal_digits n _ h) (by decide), fun h => absurd (decimal_digits n _ h) (by decide)⟩

theorem Plain.append {a b : Bytes} (ha : Plain a) (hb : Plain b) : Plain (a ++ b) :=
  ⟨fun h => (List.mem_append.1 h).elim ha.1 hb.1, fun h => (List.mem_append.1 h).elim ha.2 hb.2⟩

theorem ip4str_plain (n : Nat) : Plain (ip4str n) := by
  have dot : Plain [46] := ⟨by decide, by decide⟩
  exact (((((((decimal_plain _).append dot).append (decimal_plain _)).append dot).append (decimal_plain _)).append dot).append (decimal_plain _))

theorem take_plain {ip : Bytes} (h : Plain ip) {c : UInt8} (hc : c = 58 ∨ c = 47) (r : Bytes) :
    (ip ++ c :: r).takeWhile (fun b => b != 58 && b != 47) = ip := by
  rw [List.takeWhile_append_of_pos, List.takeWhile_cons_of_neg, List.append_nil]
  · rcases hc with rfl | rfl <;> decide
  · intro b hb
    simp only [Bool.and_eq_true, bne_iff_ne, ne_eq]
    exact ⟨fun h' => h.1 (h' ▸ hb), fun h' => h.2 (h' ▸ hb)⟩

theorem drop_slash {x : Bytes} (h : (47 : UInt8) ∉ x) (r : Bytes) : (x ++ 47 :: r).dropWhile (fun b => b != 47) = 47 :: r := by
  rw [List.dropWhile_append_of_pos]
  · rfl
  · intro b hb
    simp only [bne_iff_ne, ne_eq]
    exact fun h' => h (h' ▸ hb)

/-- The network address and the path can be read off an address. -/
theorem makeAddr_inj {proto : Bytes} {d port port' : Nat} {ip ip' rp rp' : Bytes} (h : Plain ip) (h' : Plain ip')
    (he : makeAddr proto d port ip rp = makeAddr proto d port' ip' rp') : ip = ip' ∧ rp = rp' := by
  have norm : ∀ port ip rp, makeAddr proto d port ip rp = (proto ++ ascii "://") ++
      (ip ++ ((if port ≠ d then 58 :: decimal port else []) ++ 47 :: rp)) := by
    intro port ip rp
    unfold makeAddr
    have h1 : ascii ":" = [58] := by decide
    have h2 : ascii "/" = [47] := by decide
    rw [h1, h2]
    simp [List.append_assoc]
  rw [norm, norm] at he
  have he := List.append_cancel_left he
  have noslash : ∀ port, (47 : UInt8) ∉ (if port ≠ d then 58 :: decimal port else []) := by
    intro port
    split
    · intro hm
      rcases List.mem_cons.1 hm with hm | hm
      · exact absurd hm (by decide)
      · exact (decimal_plain port).2 hm
    · simp
  have tk : ∀ port ip rp, Plain ip → (ip ++ ((if port ≠ d then 58 :: decimal port else []) ++ 47 :: rp)).takeWhile (fun b => b != 58 && b != 47) = ip := by
    intro port ip rp hp
    split
    · exact take_plain hp (.inl rfl) _
    · exact take_plain hp (.inr rfl) _
  have hip : ip = ip' := by rw [← tk port ip rp h, he, tk port' ip' rp' h']
  refine ⟨hip, ?_⟩
  subst hip
  have := congrArg (List.dropWhile (fun b => b != 47)) (List.append_cancel_left he)
  rw [drop_slash (noslash port), drop_slash (noslash port')] at this
  injection this

theorem secure_differs (port port' : Nat) (ip ip' rp rp' : Bytes) : makeIppsAddr port ip rp ≠ makeIppAddr port' ip' rp' := by
  intro h
  have h1 := congrArg (fun l => l[3]?) h
  have a1 : (makeIppsAddr port ip rp)[3]? = some 115 := by
    unfold makeIppsAddr makeAddr; simp only [List.append_assoc]; rfl
  have a2 : (makeIppAddr port' ip' rp')[3]? = some 58 := by
    unfold makeIppAddr makeAddr; simp only [List.append_assoc]; rfl
  simp only [a1, a2] at h1
  exact absurd h1 (by decide)

/-! ## The addresses that are known are IPv4 addresses -/

def AsPlain (s : St) : Prop := ∀ p ∈ s.as, ∀ ip ∈ p.2, Plain ip

theorem mem_assign {α : Type} {m : KMap α} {k : Bytes} {v : α} {p : Bytes × α} (h : p ∈ KMap.assign m k v) : p = (k, v) ∨ p ∈ m := by
  induction m with
  | nil => exact .inl (List.mem_singleton.1 h)
  | cons q m ih =>
    unfold KMap.assign at h
    split at h
    · rcases List.mem_cons.1 h with h | h
      · exact .inl h
      · exact .inr h
    · split at h
      · rcases List.mem_cons.1 h with h | h
        · exact .inl h
        · exact .inr (List.mem_cons_of_mem _ h)
      · rcases List.mem_cons.1 h with h | h
        · exact .inr (h ▸ List.mem_cons_self)
        · exact (ih h).imp id (List.mem_cons_of_mem _)

theorem readTxts_as (msg aaddr : Bytes) (stop : Nat) : ∀ (fuel : Nat) (r : Reading), (readTxts msg aaddr stop fuel r).2.st.as = r.st.as := by
  intro fuel
  induction fuel with
  | zero => intro r; rfl
  | succ fuel ih =>
    intro r
    unfold readTxts
    split
    · split
      · rw [ih]
      · rfl
    · rfl

theorem readRecord_as (msg : Bytes) (r : Reading) (h : AsPlain r.st) : AsPlain (readRecord msg r).2.st := by
  unfold readRecord
  simp only
  repeat' split
  all_goals first
    | exact h
    | (unfold AsPlain; rw [readTxts_as]; exact h)
    | skip
  intro p hp ip hip
  rcases mem_assign hp with rfl | hp
  · rcases List.mem_append.1 hip with hip | hip
    · cases hg : KMap.get? r.st.as _ with
      | none => rw [hg] at hip; cases hip
      | some ips => rw [hg] at hip; exact h _ (KMap.mem_of_get? hg) ip hip
    · rw [List.mem_singleton.1 hip]; exact ip4str_plain _
  · exact h p hp ip hip

theorem readRecords_as (msg : Bytes) : ∀ (n : Nat) (r : Reading), AsPlain r.st → AsPlain (readRecords msg n r).st := by
  intro n
  induction n with
  | zero => intro r h; exact h
  | succ n ih =>
    intro r h
    unfold readRecords
    have h' := readRecord_as msg r h
    split
    · rename_i r' hr; rw [hr] at h'; exact ih r' h'
    · rename_i r' hr; rw [hr] at h'; exact h'

theorem readResponse_as (msg : Bytes) (s : St) (h : AsPlain s) : AsPlain (readResponse msg s).st := by
  unfold readResponse
  simp only
  split
  · exact readRecords_as _ _ _ h
  · exact h

theorem resolve_plain {s : St} (h : AsPlain s) {it : Bytes} {port : Nat} {ips : List Bytes} {rp : Bytes} (hr : resolve s it = some (port, ips, rp)) :
    ∀ ip ∈ ips, Plain ip := by
  unfold resolve at hr
  split at hr
  · split at hr
    · rename_i hg
      cases hr
      exact h _ (KMap.mem_of_get? hg)
    · cases hr
  · cases hr

/-! ## One response -/

/-- What `ippsIpRps` says about the addresses reported since `s`. -/
def SecureNew (s : St) (p : St × List (Bytes × Bytes)) : Prop :=
  ∃ new, p.1.reported = s.reported ++ new ∧ ∀ a ∈ new, ∃ port ip rp, a = makeIppsAddr port ip rp ∧ Plain ip ∧ (ip, rp) ∈ p.2

theorem reportIpps_new {s : St} (port : Nat) (rp : Bytes) : ∀ (ips : List Bytes) (p : St × List (Bytes × Bytes)), (∀ ip ∈ ips, Plain ip) → SecureNew s p →
    SecureNew s (reportIpps port rp ips p) := by
  intro ips
  induction ips with
  | nil => intro p _ h; exact h
  | cons ip ips ih =>
    intro p hp h
    have hp' : ∀ ip ∈ ips, Plain ip := fun i hi => hp i (List.mem_cons_of_mem _ hi)
    unfold reportIpps
    split
    · exact ih p hp' h
    · refine ih _ hp' ?_
      obtain ⟨new, h1, h2⟩ := h
      refine ⟨new ++ [makeIppsAddr port ip rp], by simp [report, h1], ?_⟩
      intro a ha
      rcases List.mem_append.1 ha with ha | ha
      · obtain ⟨port', ip', rp', h3, h4, h5⟩ := h2 a ha
        exact ⟨port', ip', rp', h3, h4, List.mem_append_left _ h5⟩
      · exact ⟨port, ip, rp, List.mem_singleton.1 ha, hp ip List.mem_cons_self, by simp⟩

theorem updateIpps_new {s : St} (hs : AsPlain s) : ∀ (its : List Bytes) (p : St × List (Bytes × Bytes)), SameIn s p.1 → SecureNew s p →
    SecureNew s (updateIpps its p) := by
  intro its
  induction its with
  | nil => intro p _ h; exact h
  | cons it its ih =>
    intro p hsame h
    unfold updateIpps
    split
    · rename_i port ips rp hr
      rw [hsame.resolve] at hr
      exact ih _ (hsame.trans (reportIpps_same _ _ _ _)) (reportIpps_new port rp ips p (resolve_plain hs hr) h)
    · exact ih p hsame h

/-- The addresses reported since `s`, when the open addresses are reported too. -/
def OpenNew (s : St) (secure : List (Bytes × Bytes)) (s' : St) : Prop :=
  ∃ new, s'.reported = s.reported ++ new ∧ ∀ a ∈ new, (∃ port ip rp, a = makeIppsAddr port ip rp ∧ Plain ip ∧ (ip, rp) ∈ secure) ∨
    (∃ port ip rp, a = makeIppAddr port ip rp ∧ Plain ip ∧ (ip, rp) ∉ secure)

theorem reportIpp_new {s : St} {secure : List (Bytes × Bytes)} (port : Nat) (rp : Bytes) : ∀ (ips : List Bytes) (s' : St), (∀ ip ∈ ips, Plain ip) →
    OpenNew s secure s' → OpenNew s secure (reportIpp port rp secure ips s') := by
  intro ips
  induction ips with
  | nil => intro p _ h; exact h
  | cons ip ips ih =>
    intro s' hp h
    have hp' : ∀ ip ∈ ips, Plain ip := fun i hi => hp i (List.mem_cons_of_mem _ hi)
    unfold reportIpp
    split
    · exact ih _ hp' h
    · rename_i hn
      refine ih _ hp' ?_
      obtain ⟨new, h1, h2⟩ := h
      refine ⟨new ++ [makeIppAddr port ip rp], by simp [report, h1], ?_⟩
      intro a ha
      rcases List.mem_append.1 ha with ha | ha
      · exact h2 a ha
      · exact .inr ⟨port, ip, rp, List.mem_singleton.1 ha, hp ip List.mem_cons_self, fun hm => hn (.inr hm)⟩

theorem updateIpp_new {s : St} {secure : List (Bytes × Bytes)} (hs : AsPlain s) : ∀ (its : List Bytes) (s' : St), SameIn s s' →
    OpenNew s secure s' → OpenNew s secure (updateIpp secure its s') := by
  intro its
  induction its with
  | nil => intro p _ h; exact h
  | cons it its ih =>
    intro s' hsame h
    unfold updateIpp
    split
    · rename_i port ips rp hr
      rw [hsame.resolve] at hr
      exact ih _ (hsame.trans (reportIpp_same _ _ _ _ _)) (reportIpp_new port rp ips s' (resolve_plain hs hr) h)
    · exact ih _ hsame h

/-- What one `update` reports: no address of both kinds. -/
theorem update_new {s : St} (hs : AsPlain s) : ∃ new, (update s).reported = s.reported ++ new ∧
    ∀ (n : Nat) (rp : Bytes) (port port' : Nat), makeIppsAddr port (ip4str n) rp ∈ new → makeIppAddr port' (ip4str n) rp ∉ new := by
  have h1 : SecureNew s (updateIpps s.ippsPtrs (s, [])) := updateIpps_new hs _ _ (.refl _) ⟨[], by simp, nofun⟩
  have h2 : OpenNew s (updateIpps s.ippsPtrs (s, [])).2 (updateIpps s.ippsPtrs (s, [])).1 := by
    obtain ⟨new, h3, h4⟩ := h1
    exact ⟨new, h3, fun a ha => .inl (h4 a ha)⟩
  obtain ⟨new, h3, h4⟩ := updateIpp_new hs s.ippPtrs _ (updateIpps_same s.ippsPtrs (s, [])) h2
  refine ⟨new, h3, fun n rp port port' ha hb => ?_⟩
  have hsec : (ip4str n, rp) ∈ (updateIpps s.ippsPtrs (s, [])).2 := by
    rcases h4 _ ha with ⟨p, ip, r, he, hp, hm⟩ | ⟨p, ip, r, he, -, -⟩
    · obtain ⟨rfl, rfl⟩ := makeAddr_inj (ip4str_plain n) hp he
      exact hm
    · exact absurd he (secure_differs _ _ _ _ _ _)
  rcases h4 _ hb with ⟨p, ip, r, he, -, -⟩ | ⟨p, ip, r, he, hp, hm⟩
  · exact absurd he.symm (secure_differs _ _ _ _ _ _)
  · obtain ⟨rfl, rfl⟩ := makeAddr_inj (ip4str_plain n) hp he
    exact hm hsec

theorem discover_plain {clock : Nat → Nat} {msgs : List Bytes} {s : St} (h : discover (sendQuery clock) msgs = .ok s) : AsPlain s := by
  refine discover_ind' (P := AsPlain) nofun readResponse_as (fun _ _ _ h => h) ?_ ?_ h
  · intro q a s s' h hp
    unfold AsPlain
    rw [sendQuery_ok h, (meant_same clock q a s).2.2.1]; exact hp
  · intro s hp
    unfold AsPlain
    rw [(update_same s).2.2.2.2.2.1]; exact hp

/-- What a datagram makes known with `ipps` it does not make known with `ipp`. -/
theorem secure_only {clock : Nat → Nat} {msgs : List Bytes} {msg : Bytes} {s s' : St} (h : discover (sendQuery clock) msgs = .ok s)
    (h' : receive (sendQuery clock) [msg] s = .ok s') : ∃ new, s'.reported = s.reported ++ new ∧
    ∀ (n : Nat) (rp : Bytes) (port port' : Nat), makeIppsAddr port (ip4str n) rp ∈ new → makeIppAddr port' (ip4str n) rp ∉ new := by
  unfold receive at h'
  simp only [Outcome.bind_eq_ok] at h'
  obtain ⟨s1, h2, h3⟩ := h'
  cases h3
  obtain ⟨s3, ⟨p3, q3⟩, rfl⟩ := afterReading_ind (P := fun t => AsPlain t ∧ t.reported = s.reported) (fun _ _ _ h => h)
    (fun q a t t' ht hp => by
      unfold AsPlain
      rw [sendQuery_ok ht, (meant_same clock q a t).1, (meant_same clock q a t).2.2.1]; exact hp) h2
    ⟨readResponse_as msg s (discover_plain h), (readResponse_same msg s).2.1⟩
  rw [← q3]
  exact update_new p3

/-! ## A printer that answers -/

/-- A name, uncompressed. -/
def plainName (ls : List String) : Bytes := (ls.map (fun l => be8 (ascii l).length ++ ascii l)).flatten ++ [0]

/-- A resource record. -/
def record (name : List String) (type : Nat) (data : Bytes) : Bytes := plainName name ++ be16 type ++ be16 1 ++ be32 120 ++ be16 data.length ++ data

/-- A response with these records. -/
def response (rs : List Bytes) : Bytes := be16 0 ++ be16 0x8400 ++ be16 0 ++ be16 rs.length ++ be16 0 ++ be16 0 ++ rs.flatten

/-- The four records with which a printer announces itself for a service. -/
def announce (service : String) (port : Nat) : List Bytes :=
  [record [service, "_tcp", "local"] 12 (plainName ["P", service, "_tcp", "local"]),
   record ["P", service, "_tcp", "local"] 33 (be16 0 ++ be16 0 ++ be16 port ++ plainName ["p", "local"]),
   record ["P", service, "_tcp", "local"] 16 (be8 6 ++ ascii "rp=a/b"),
   record ["p", "local"] 1 [10, 0, 0, 7]]

/-- What is reported when these datagrams arrive at once. -/
def reportsOf (msgs : List Bytes) : List Bytes :=
  match discover (sendQuery (fun _ => 0)) msgs with
  | .ok s => s.reported
  | _ => []

/-- in one datagram the open address is left out; when all was reported, nothing is reported again -/
example : reportsOf [response (announce "_ipps" 443 ++ announce "_ipp" 631)] = [ascii "ipps://10.0.0.7/a/b"] ∧
    reportsOf [response (announce "_ipp" 8631), response (announce "_ipp" 8631)] = [ascii "ipp://10.0.0.7:8631/a/b"] := by
  decide +kernel

/-- and then any other datagram, here an empty one, brings the open address all the same -/
example : reportsOf [response (announce "_ipps" 443 ++ announce "_ipp" 631), response []] = [ascii "ipps://10.0.0.7/a/b", ascii "ipp://10.0.0.7/a/b"] := by
  decide +kernel

end Verif.Discovery
